import Verif.Model.KeccakNeon
import Verif.Model.PlSnPFallback
import Verif.Model.SimdRounds
import Verif.Model.Simd32
import Verif.Model.XoodooArm

/-!
# Two Keccak-p[1600] in parallel in ARMv7-A NEON assembly

Models `lib/low/KeccakP-1600-times2/ARMv7A-NEON/KeccakP-1600-inplace-pl2-armv7a-neon-le-gcc.s` ("s" below), instruction by instruction, and its header
`KeccakP-1600-times2-SnP.h`.  The `armcc` file is the same program in the syntax of another assembler.  The macros `KeccakS_*` (s:65-313) are not used.

* The registers `q0`-`q15` are a function from the number of the register to pairs of lanes; `qk` is the pair of `d(2k)` and `d(2k+1)`.  The meaning of
  the instructions is taken from the ARMv7-A manual and is part of the trusted base.
* In the permutation the memory of the states is an array of 25 pairs of lanes.  `r3` is the distance in bytes from its start, which is aligned to 32
  bytes (KeccakP-1600-times2-SnP.h:27); an access that is outside of the array, or that has not the alignment given in the instruction, gives `none`.
* `r6` is the distance in bytes from `r5`, which points to the 64 bytes for temporary storage on the stack; an access outside of the part of the stack that the
  function has allocated gives `none`.
* The pointer `r1` to the round constants is the distance in bytes from the start of the table; a read outside of the table gives `none`.
* In the other functions the states are a list of 400 bytes; the other buffers are lists of bytes that do not overlap with it or with each other.  A read or
  write outside of a buffer gives `none`.  `ldr` and `str` may be unaligned, as they may in ARMv7-A unless the operating system forbids it; `vldm`, `vstm`,
  `ldrd` and `strd` give `none` unless the address is aligned to 4 bytes.
* `unsigned int` and the counters have 32 bits; running out of fuel gives `none`.
* Saving the registers of the caller is not modelled.
-/

namespace Times2Neon

open KeccakP1600 (Lane wordOfBytes)
open Armv8Asm (sriElem)
open PlSnPFallback (Par Perm)
open XoodooArm (sub32 ldrb strb Wr Ex Ea addOne overwriteOne extractOne extractAddOne)

/-- A register `q`: the lane of instance 0 and that of instance 1. -/
abbrev Q : Type := Fin 2 → Lane

/-- The registers `q0`-`q15`, the states, the storage on the stack, the number of bytes of the stack allocated from `r5` on, and the pointers. -/
structure M where
  q : Nat → Q
  s : Nat → Q
  t : Nat → Q
  room : Nat
  (r1 r3 r4 r6 : Nat)

/-- A register is written. -/
def M.set (m : M) (i : Nat) (v : Q) : M := { m with q := fun j => if j = i then v else m.q j }

/-- A pair of lanes of the states is written. -/
def M.put (m : M) (i : Nat) (v : Q) : M := { m with s := fun j => if j = i then v else m.s j }

/-- A pair of lanes of the stack is written. -/
def M.push (m : M) (i : Nat) (v : Q) : M := { m with t := fun j => if j = i then v else m.t j }

/-- `veor.64 qd, qn, qm`. -/
def veor (d n k : Nat) (m : M) : M := m.set d fun l => m.q n l ^^^ m.q k l

/-- `vbic.64 qd, qn, qm`: the bits of `qn` that are not in `qm`. -/
def vbic (d n k : Nat) (m : M) : M := m.set d fun l => m.q n l &&& ~~~ m.q k l

/-- `vadd.u64 qd, qn, qm`. -/
def vadd (d n k : Nat) (m : M) : M := m.set d fun l => m.q n l + m.q k l

/-- `vshl.u64 qd, qm, #k`. -/
def vshl (d n k : Nat) (m : M) : M := m.set d fun l => m.q n l <<< k

/-- `vsri.64 qd, qm, #k`: the upper `k` bits of each half of `qd` are kept. -/
def vsri (d n k : Nat) (m : M) : M := m.set d fun l => sriElem (m.q d l) (m.q n l) k

/-- `vld1.64 { qd }, [r3:128]`. -/
def vld1 (d : Nat) (m : M) : Option M :=
  if m.r3 % 16 = 0 ∧ m.r3 + 16 ≤ 400 then some (m.set d (m.s (m.r3 / 16))) else none

/-- `vst1.64 { qd }, [r3:128]`. -/
def vst1 (d : Nat) (m : M) : Option M :=
  if m.r3 % 16 = 0 ∧ m.r3 + 16 ≤ 400 then some (m.put (m.r3 / 16) (m.q d)) else none

/-- `add r3, r0, #n`, and `mov r3, r0` for 0. -/
def setR3 (n : Nat) (m : M) : M := { m with r3 := n }

/-- `mov r4, #n` unless `n` is 16 (s:361-363, 441-443, 538-540). -/
def setR4 (n : Nat) (m : M) : M := { m with r4 := if n ≠ 16 then n else m.r4 }

/-- The macro `m_pls` (s:317-321); `none` is -1. -/
def pls (start : Option Nat) (m : M) : M := { m with r3 := start.getD m.r3 }

/-- `!` or `, r4` after an access in `m_ld` and `m_st` (s:324-328, 332-336). -/
def bump (next : Nat) (m : M) : M := { m with r3 := m.r3 + if next = 16 then 16 else m.r4 }

/-- The macro `m_ld` (s:323-329). -/
def mLd (d next : Nat) (m : M) : Option M := do
  let m ← vld1 d m
  some (bump next m)

/-- The macro `m_st` (s:331-337). -/
def mSt (d next : Nat) (m : M) : Option M := do
  let m ← vst1 d m
  some (bump next m)

/-- `mov r6, r5`. -/
def resetR6 (m : M) : M := { m with r6 := 0 }

/-- `vst1.64 { qd }, [r6:128]!`. -/
def pushT (d : Nat) (m : M) : Option M :=
  if m.r6 % 16 = 0 ∧ m.r6 + 16 ≤ m.room then some { m.push (m.r6 / 16) (m.q d) with r6 := m.r6 + 16 } else none

/-- `vld1.64 { qd }, [r6:128]!`. -/
def popT (d : Nat) (m : M) : Option M :=
  if m.r6 % 16 = 0 ∧ m.r6 + 16 ≤ m.room then some { m.set d (m.t (m.r6 / 16)) with r6 := m.r6 + 16 } else none

/-- The constants from `KeccakP1600times2_Permute_RoundConstants24` on (s:1231-1258); the labels `...24`, `...12`, `...6` and `...4` have the
distances 0, 96, 144 and 160 from the start. -/
def roundConstants : List Lane := [
  0x0000000000000001, 0x0000000000008082, 0x800000000000808a, 0x8000000080008000, 0x000000000000808b, 0x0000000080000001,
  0x8000000080008081, 0x8000000000008009, 0x000000000000008a, 0x0000000000000088, 0x0000000080008009, 0x000000008000000a,
  0x000000008000808b, 0x800000000000008b, 0x8000000000008089, 0x8000000000008003, 0x8000000000008002, 0x8000000000000080,
  0x000000000000800a, 0x800000008000000a, 0x8000000080008081, 0x8000000000008080, 0x0000000080000001, 0x8000000080008008]

/-- `vld1.64 { d30 }, [r1:64]` (`i` is 0) or `vld1.64 { d31 }, [r1:64]` (`i` is 1). -/
def vldRc (i : Fin 2) (m : M) : Option M := do
  let w ← if m.r1 % 8 = 0 then roundConstants[m.r1 / 8]? else none
  some (m.set 15 fun l => if l = i then w else m.q 15 l)

/-- `!` after the second of these. -/
def bumpR1 (m : M) : M := { m with r1 := m.r1 + 8 }

/-- The macro `KeccakP_ThetaRhoPiChiIota` (s:339-431). -/
def iotaGroup (ofs1 : Nat) (ofs2 ofs3 ofs4 ofs5 : Option Nat) (next ofsn1 : Nat) (m : M) : Option M := do
  let m := vadd 6 2 2 m
  let m := vadd 7 3 3 m
  let m := vadd 8 4 4 m
  let m := vadd 9 0 0 m
  let m := vadd 5 1 1 m
  let m := vsri 6 2 63 m
  let m := vsri 7 3 63 m
  let m := vsri 8 4 63 m
  let m := vsri 9 0 63 m
  let m := vsri 5 1 63 m
  let m := veor 6 6 0 m
  let m := veor 7 7 1 m
  let m := veor 8 8 2 m
  let m := setR4 next m
  let m := veor 9 9 3 m
  let m := veor 5 5 4 m
  let m ← mLd 10 next m
  let m := pls ofs2 m
  let m ← mLd 1 next m
  let m := pls ofs3 m
  let m := veor 10 10 5 m
  let m ← mLd 2 next m
  let m := pls ofs4 m
  let m := veor 1 1 6 m
  let m ← mLd 3 next m
  let m := pls ofs5 m
  let m := veor 2 2 7 m
  let m ← mLd 4 next m
  let m := veor 3 3 8 m
  let m := resetR6 m
  let m := veor 4 4 9 m
  let m ← pushT 6 m
  let m := vshl 11 1 44 m
  let m := vshl 12 2 43 m
  let m ← pushT 7 m
  let m := vshl 13 3 21 m
  let m := vshl 14 4 14 m
  let m ← pushT 8 m
  let m := vsri 11 1 (64 - 44) m
  let m := vsri 12 2 (64 - 43) m
  let m ← pushT 9 m
  let m := vsri 13 3 (64 - 21) m
  let m := vsri 14 4 (64 - 14) m
  let m ← vldRc 0 m
  let m := vbic 0 12 11 m
  let m := vbic 1 13 12 m
  let m ← vldRc 1 m
  let m := bumpR1 m
  let m := veor 0 0 10 m
  let m := vbic 4 11 10 m
  let m := veor 0 0 15 m
  let m := vbic 2 14 13 m
  let m := vbic 3 10 14 m
  let m := setR3 ofs1 m
  let m := veor 1 1 11 m
  let m ← mSt 0 next m
  let m := pls ofs2 m
  let m := veor 2 2 12 m
  let m ← mSt 1 next m
  let m := pls ofs3 m
  let m := veor 3 3 13 m
  let m ← mSt 2 next m
  let m := pls ofs4 m
  let m := veor 4 4 14 m
  let m ← mSt 3 next m
  let m := pls ofs5 m
  let m ← mSt 4 next m
  some (setR3 ofsn1 m)

/-- The macro `KeccakP_ThetaRhoPiChi` (s:433-515). -/
def group (ofs1 : Nat) (ofs2 ofs3 ofs4 ofs5 : Option Nat) (next ofsn1 : Nat) (b1 b2 b3 b4 b5 : Nat) (k1 k2 k3 k4 k5 : Nat) (m : M) : Option M := do
  let m := setR4 next m
  let m ← mLd b1 next m
  let m := pls ofs2 m
  let m ← mLd b2 next m
  let m := pls ofs3 m
  let m := veor 15 5 b1 m
  let m ← mLd b3 next m
  let m := pls ofs4 m
  let m := veor 6 6 b2 m
  let m ← mLd b4 next m
  let m := pls ofs5 m
  let m := veor 7 7 b3 m
  let m ← mLd b5 next m
  let m := veor 8 8 b4 m
  let m := veor 9 9 b5 m
  let m := vshl b1 15 k1 m
  let m := vshl b2 6 k2 m
  let m := vshl b3 7 k3 m
  let m := vshl b4 8 k4 m
  let m := vshl b5 9 k5 m
  let m := vsri b1 15 (64 - k1) m
  let m := vsri b2 6 (64 - k2) m
  let m := vsri b3 7 (64 - k3) m
  let m := vsri b4 8 (64 - k4) m
  let m := vsri b5 9 (64 - k5) m
  let m := vbic 15 12 11 m
  let m := resetR6 m
  let m := vbic 6 13 12 m
  let m := setR3 ofs1 m
  let m := vbic 7 14 13 m
  let m := vbic 8 10 14 m
  let m := vbic 9 11 10 m
  let m := veor 15 15 10 m
  let m := veor 6 6 11 m
  let m ← mSt 15 next m
  let m := pls ofs2 m
  let m := veor 7 7 12 m
  let m ← mSt 6 next m
  let m := pls ofs3 m
  let m := veor 1 1 6 m
  let m ← popT 6 m
  let m := veor 8 8 13 m
  let m ← mSt 7 next m
  let m := pls ofs4 m
  let m := veor 2 2 7 m
  let m ← popT 7 m
  let m := veor 9 9 14 m
  let m ← mSt 8 next m
  let m := pls ofs5 m
  let m := veor 3 3 8 m
  let m ← mSt 9 next m
  let m ← popT 8 m
  let m := veor 4 4 9 m
  let m := setR3 ofsn1 m
  let m ← popT 9 m
  some (veor 0 0 15 m)

/-- The macro `KeccakP_ThetaRhoPiChi1` (s:517-519). -/
def group1 (ofs1 : Nat) (ofs2 ofs3 ofs4 ofs5 : Option Nat) (next ofsn1 : Nat) : M → Option M :=
  group ofs1 ofs2 ofs3 ofs4 ofs5 next ofsn1 12 13 14 10 11 3 45 61 28 20

/-- The macro `KeccakP_ThetaRhoPiChi2` (s:521-523). -/
def group2 (ofs1 : Nat) (ofs2 ofs3 ofs4 ofs5 : Option Nat) (next ofsn1 : Nat) : M → Option M :=
  group ofs1 ofs2 ofs3 ofs4 ofs5 next ofsn1 14 10 11 12 13 18 1 6 25 8

/-- The macro `KeccakP_ThetaRhoPiChi3` (s:525-527). -/
def group3 (ofs1 : Nat) (ofs2 ofs3 ofs4 ofs5 : Option Nat) (next ofsn1 : Nat) : M → Option M :=
  group ofs1 ofs2 ofs3 ofs4 ofs5 next ofsn1 11 12 13 14 10 36 10 15 56 27

/-- The macro `KeccakP_ThetaRhoPiChi4` (s:529-595). -/
def group4 (ofs1 : Nat) (ofs2 ofs3 ofs4 ofs5 : Option Nat) (next ofsn1 : Nat) (m : M) : Option M := do
  let m := setR4 next m
  let m ← mLd 13 next m
  let m := pls ofs2 m
  let m ← mLd 14 next m
  let m := pls ofs3 m
  let m := veor 5 5 13 m
  let m ← mLd 10 next m
  let m := pls ofs4 m
  let m := veor 6 6 14 m
  let m ← mLd 11 next m
  let m := pls ofs5 m
  let m := veor 7 7 10 m
  let m ← mLd 12 next m
  let m := veor 8 8 11 m
  let m := veor 9 9 12 m
  let m := vshl 13 5 41 m
  let m := vshl 14 6 2 m
  let m := vshl 10 7 62 m
  let m := vshl 11 8 55 m
  let m := vshl 12 9 39 m
  let m := vsri 13 5 (64 - 41) m
  let m := vsri 14 6 (64 - 2) m
  let m := vsri 11 8 (64 - 55) m
  let m := vsri 12 9 (64 - 39) m
  let m := vsri 10 7 (64 - 62) m
  let m := vbic 5 12 11 m
  let m := vbic 6 13 12 m
  let m := vbic 7 14 13 m
  let m := vbic 8 10 14 m
  let m := vbic 9 11 10 m
  let m := veor 5 5 10 m
  let m := veor 6 6 11 m
  let m := veor 7 7 12 m
  let m := veor 8 8 13 m
  let m := setR3 ofs1 m
  let m := veor 9 9 14 m
  let m ← mSt 5 next m
  let m := pls ofs2 m
  let m := veor 0 0 5 m
  let m ← mSt 6 next m
  let m := pls ofs3 m
  let m := veor 1 1 6 m
  let m ← mSt 7 next m
  let m := pls ofs4 m
  let m := veor 2 2 7 m
  let m ← mSt 8 next m
  let m := pls ofs5 m
  let m := veor 3 3 8 m
  let m ← mSt 9 next m
  let m := setR3 ofsn1 m
  some (veor 4 4 9 m)

/-! The offsets in the states (s:37-61). -/

abbrev _ba : Nat := 0 * 16
abbrev _be : Nat := 1 * 16
abbrev _bi : Nat := 2 * 16
abbrev _bo : Nat := 3 * 16
abbrev _bu : Nat := 4 * 16
abbrev _ga : Nat := 5 * 16
abbrev _ge : Nat := 6 * 16
abbrev _gi : Nat := 7 * 16
abbrev _go : Nat := 8 * 16
abbrev _gu : Nat := 9 * 16
abbrev _ka : Nat := 10 * 16
abbrev _ke : Nat := 11 * 16
abbrev _ki : Nat := 12 * 16
abbrev _ko : Nat := 13 * 16
abbrev _ku : Nat := 14 * 16
abbrev _ma : Nat := 15 * 16
abbrev _me : Nat := 16 * 16
abbrev _mi : Nat := 17 * 16
abbrev _mo : Nat := 18 * 16
abbrev _mu : Nat := 19 * 16
abbrev _sa : Nat := 20 * 16
abbrev _se : Nat := 21 * 16
abbrev _si : Nat := 22 * 16
abbrev _so : Nat := 23 * 16
abbrev _su : Nat := 24 * 16

/-- The first round of the loop (s:1364-1368). -/
def round0 (m : M) : Option M := do
  let m ← iotaGroup _ba none none none none (_ge - _ba) _ka m
  let m ← group1 _ka none none (some _bo) none (_me - _ka) _sa m
  let m ← group2 _sa (some _be) none none none (_gi - _be) _ga m
  let m ← group3 _ga none none none (some _bu) (_ke - _ga) _ma m
  group4 _ma none (some _bi) none none (_se - _ma) _ba m

/-- The second round of the loop (s:1370-1374). -/
def round1 (m : M) : Option M := do
  let m ← iotaGroup _ba none (some _gi) none (some _ku) (_me - _ba) _sa m
  let m ← group1 _sa (some _ke) (some _bi) none (some _gu) (_mo - _bi) _ma m
  let m ← group2 _ma (some _ge) none (some _ko) (some _bu) (_si - _ge) _ka m
  let m ← group3 _ka (some _be) none (some _go) none (_mi - _be) _ga m
  group4 _ga none (some _ki) (some _bo) none (_se - _ga) _ba m

/-- The third round of the loop (s:1376-1380). -/
def round2 (m : M) : Option M := do
  let m ← iotaGroup _ba none none (some _go) none (_ke - _ba) _ma m
  let m ← group1 _ma (some _be) none none (some _gu) (_ki - _be) _ga m
  let m ← group2 _ga none (some _bi) none none (_me - _ga) _sa m
  let m ← group3 _sa (some _ge) none (some _bo) none (_mi - _ge) _ka m
  group4 _ka none (some _gi) none (some _bu) (_se - _ka) _ba m

/-- The fourth round of the loop (s:1382-1387). -/
def round3 (m : M) : Option M := do
  let m ← iotaGroup _ba none none none none (_be - _ba) _ga m
  let m ← group1 _ga none none none none (_ge - _ga) _ka m
  let m ← group2 _ka none none none none (_ke - _ka) _ma m
  let m ← group3 _ma none none none none (_me - _ma) _sa m
  group4 _sa none none none none (_se - _sa) _ba m

/-- From `KeccakP1600times2_PermuteAll_RoundLoop` (`label` is 0) or from `KeccakP1600times2_PermuteAll_Round2` (`label` is 2) to the end of the loop
(s:1363-1388); `r2` is the counter. -/
def roundLoop : Nat → Nat → Nat → M → Option M
  | 0, _, _, _ => none
  | fuel + 1, label, r2, m => do
    let m ← if label = 0 then (do let m ← round0 m; round1 m) else some m
    let m ← round2 m
    let m ← round3 m
    let r2 := sub32 r2 4
    if r2 ≠ 0 then roundLoop fuel 0 r2 m else some m

/-- `vld1.64 { qd, q(d+1) }, [r3:256]!`. -/
def vld1x2 (d : Nat) (m : M) : Option M :=
  if m.r3 % 32 = 0 ∧ m.r3 + 32 ≤ 400 then
    some { (m.set d (m.s (m.r3 / 16))).set (d + 1) (m.s (m.r3 / 16 + 1)) with r3 := m.r3 + 32 } else none

/-- "PrepareTheta" in `KeccakP1600times2_PermuteAll` (s:1309, 1318-1361). -/
def prepTheta (m : M) : Option M := do
  let m := setR3 0 m
  let m ← vld1x2 0 m
  let m ← vld1x2 2 m
  let m ← vld1x2 4 m
  let m ← mLd 6 16 m
  let m := veor 0 0 5 m
  let m ← mLd 7 16 m
  let m := veor 1 1 6 m
  let m ← mLd 8 16 m
  let m := veor 2 2 7 m
  let m ← mLd 9 16 m
  let m := veor 3 3 8 m
  let m ← mLd 5 16 m
  let m := veor 4 4 9 m
  let m ← mLd 6 16 m
  let m := veor 0 0 5 m
  let m ← mLd 7 16 m
  let m := veor 1 1 6 m
  let m ← mLd 8 16 m
  let m := veor 2 2 7 m
  let m ← mLd 9 16 m
  let m := veor 3 3 8 m
  let m ← mLd 5 16 m
  let m := veor 4 4 9 m
  let m ← mLd 6 16 m
  let m := veor 0 0 5 m
  let m ← mLd 7 16 m
  let m := veor 1 1 6 m
  let m ← mLd 8 16 m
  let m := veor 2 2 7 m
  let m ← mLd 9 16 m
  let m := veor 3 3 8 m
  let m ← mLd 5 16 m
  let m := veor 4 4 9 m
  let m ← mLd 6 16 m
  let m := veor 0 0 5 m
  let m ← mLd 7 16 m
  let m := veor 1 1 6 m
  let m ← mLd 8 16 m
  let m := veor 2 2 7 m
  let m ← mLd 9 16 m
  let m := setR3 0 m
  let m := veor 3 3 8 m
  some (veor 4 4 9 m)

/-- `vldm` of `qd` at the distance `a` from `r0`. -/
def ldQ (d a : Nat) (m : M) : M := m.set d (m.s (a / 16))

/-- `vstm` of `qd` at the distance `a` from `r0`. -/
def stQ (d a : Nat) (m : M) : M := m.put (a / 16) (m.q d)

/-- The exchange of lanes and "PrepareTheta" in `KeccakP1600times2_PermuteAll_6rounds` (s:1139-1226).  The addresses, all of them constants within the states, are
written as distances from `r0` instead of through `r3` and `r4`. -/
def prepTheta6 (m : M) : M :=
  let m := ldQ 0 _ba m
  let m := ldQ 1 _be m
  let m := ldQ 2 _bi m
  let m := ldQ 3 _bo m
  let m := ldQ 4 _bu m
  let m := ldQ 6 _me m
  let m := stQ 1 _me m
  let m := veor 1 1 6 m
  let m := stQ 6 _be m
  let m := ldQ 10 _ga m
  let m := ldQ 11 _ge m
  let m := ldQ 12 _gi m
  let m := ldQ 13 _go m
  let m := ldQ 14 _gu m
  let m := stQ 2 _gi m
  let m := veor 2 2 12 m
  let m := stQ 12 (_be + 16) m
  let m := ldQ 8 _so m
  let m := stQ 3 _so m
  let m := veor 3 3 8 m
  let m := stQ 8 (_be + 32) m
  let m := ldQ 9 _ku m
  let m := stQ 4 _ku m
  let m := veor 4 4 9 m
  let m := stQ 9 (_be + 48) m
  let m := ldQ 5 _sa m
  let m := stQ 10 _sa m
  let m := veor 0 0 5 m
  let m := veor 0 0 10 m
  let m := stQ 5 _ga m
  let m := ldQ 6 _ke m
  let m := stQ 11 _ke m
  let m := veor 1 1 6 m
  let m := veor 1 1 11 m
  let m := stQ 6 (_ga + 16) m
  let m := ldQ 8 _mo m
  let m := stQ 13 _mo m
  let m := veor 3 3 8 m
  let m := veor 3 3 13 m
  let m := stQ 8 _go m
  let m := veor 4 4 14 m
  let m := ldQ 10 _ka m
  let m := ldQ 5 _ma m
  let m := stQ 10 _ma m
  let m := veor 0 0 5 m
  let m := veor 0 0 10 m
  let m := stQ 5 _ka m
  let m := ldQ 12 _ki m
  let m := ldQ 13 (_ki + 16) m
  let m := ldQ 7 _si m
  let m := stQ 12 _si m
  let m := veor 2 2 7 m
  let m := veor 2 2 12 m
  let m := stQ 7 _ki m
  let m := veor 3 3 13 m
  let m := ldQ 14 _mu m
  let m := ldQ 9 _su m
  let m := stQ 14 _su m
  let m := veor 4 4 9 m
  let m := veor 4 4 14 m
  let m := stQ 9 _mu m
  let m := ldQ 12 _mi m
  let m := veor 2 2 12 m
  let m := ldQ 6 _se m
  let m := veor 1 1 6 m
  setR3 0 m

/-- The pairs of lanes in memory. -/
def memOf (st : Bytes) (i : Nat) : Q := fun l => wordOfBytes (st.drop (8 * (i * 2 + l.val)))

/-- The bytes of the pairs of lanes in memory. -/
def bytesOf (s : Nat → Q) : Bytes :=
  (List.range 400).map fun j => (KeccakP1600.bytesOfWord (s (j / 16) (if j % 16 < 8 then 0 else 1))).getD (j % 8) 0

/-- What is in the registers and on the stack before; `sp` is the stack pointer after the registers of the caller are saved, a multiple of 8 (ARM procedure call
standard). -/
structure Junk where
  q : Nat → Q
  t : Nat → Q
  r4 : Nat
  r6 : Nat
  sp : Nat

/-- `sub sp, #4*2*8+8`, `add r5, sp, #8`, `bic r5, #15` (s:1111-1112, 1140, 1308, 1310, 1319): the number of bytes from `r5` to the end of what is allocated;
`none` if `r5` is not in that part of the stack. -/
def roomOf (sp : Nat) : Option Nat :=
  let sp' := sp - (4 * 2 * 8 + 8)
  let r5 := (sp' + 8) / 16 * 16
  if sp' ≤ r5 ∧ r5 ≤ sp then some (sp - r5) else none

/-- `KeccakP1600times2_PermuteAll` (s:1305-1392). -/
def permute (J : Junk) (st : Bytes) (r1 r2 : Nat) : Option Bytes := do
  let room ← roomOf J.sp
  let m ← prepTheta ⟨J.q, memOf st, J.t, room, r1, 0, J.r4, J.r6⟩
  let m ← roundLoop (2 ^ 32) 0 r2 m
  some (bytesOf m.s)

/-- `KeccakP1600times2_PermuteAll_6rounds` (s:1106-1227). -/
def permute6 (J : Junk) (st : Bytes) : Option Bytes := do
  let room ← roomOf J.sp
  let m := prepTheta6 ⟨J.q, memOf st, J.t, room, 144, 0, J.r4, J.r6⟩
  let m ← roundLoop (2 ^ 32) 2 (6 + 2) m
  some (bytesOf m.s)

/-- The four permutation functions (s:1106-1227, 1267-1270, 1280-1283, 1293-1296). -/
def permuteAll (J : Junk) : Perm → Bytes → Option Bytes
  | .all, st => permute J st 0 24
  | .r12, st => permute J st 96 12
  | .r6, st => permute6 J st
  | .r4, st => permute J st 160 4

/-! ### The functions on bytes -/

/-- `ldr`. -/
def ldr (m : Bytes) (a : Nat) : Option (BitVec 32) := Simd32.loadWord m a

/-- `str`. -/
def str (m : Bytes) (a : Nat) (w : BitVec 32) : Option Bytes := Simd32.storeWord m a w

/-- A loop with `subs` of the counter and `bne` at its end. -/
def countLoop {σ : Type} (body : σ → Option σ) : Nat → Nat → σ → Option σ
  | 0, _, _ => none
  | fuel + 1, n, s => do
    let s ← body s
    let n := sub32 n 1
    if n ≠ 0 then countLoop body fuel n s else some s

/-- The loops `..._LoopBytesFirst` (s:670-679, 762-769, 888-895, 987-996): `r1` is the length, `r3` the number of bytes left in the lane; `skip` is
`add r0, r0, #8` after the loop.  Gives the length that remains, 0 for the branch to `..._Done`. -/
def firstLoop {σ : Type} (body : σ → Option σ) (skip : σ → σ) : Nat → Nat → Nat → σ → Option (σ × Nat)
  | 0, _, _, _ => none
  | fuel + 1, r3, r1, s => do
    let s ← body s
    let r1 := sub32 r1 1
    if r1 = 0 then some (s, 0) else
    let r3 := sub32 r3 1
    if r3 ≠ 0 then firstLoop body skip fuel r3 r1 s else some (skip s, r1)

/-- From `..._CheckLanes` to `..._Done` (s:680-704, 770-788, 896-914, 997-1021), and `OverwriteWithZeroes` from the second instruction on (s:848-864). -/
def fromLanes {σ : Type} (lane byte : σ → Option σ) (r1 : Nat) (s : σ) : Option σ := do
  let s ← if r1 / 8 = 0 then some s else countLoop lane (2 ^ 32) (r1 / 8) s
  if r1 % 8 = 0 then some s else countLoop byte (2 ^ 32) (r1 % 8) s

/-- The part of `AddBytes`, `OverwriteBytes`, `ExtractBytes` and `ExtractAndAddBytes` that they have in common (s:660-706, 752-790, 878-916, 976-1023);
`start` gives the registers for the value of `r0`. -/
def walk {σ : Type} (lane byte : σ → Option σ) (skip : σ → σ) (start : Nat → σ) (i offset length : Nat) : Option σ :=
  let r0 := 8 * i
  if length = 0 then some (start r0) else
  let r0 := r0 + offset / 8 * 16
  if offset % 8 = 0 then fromLanes lane byte length (start r0)
  else do
    let (s, r1) ← firstLoop byte skip (2 ^ 32) (8 - offset % 8) length (start (r0 + offset % 8))
    if r1 = 0 then some s else fromLanes lane byte r1 s

/-- `KeccakP1600times2_InitializeAll` (s:615-627). -/
def initAll (st : Bytes) : Option Bytes := do
  let st ← SnP.overwriteBytes st (Bytes.zeros 64) 0
  let st ← SnP.overwriteBytes st (Bytes.zeros 64) 64
  let st ← SnP.overwriteBytes st (Bytes.zeros 64) 128
  let st ← SnP.overwriteBytes st (Bytes.zeros 64) 192
  let st ← SnP.overwriteBytes st (Bytes.zeros 64) 256
  let st ← SnP.overwriteBytes st (Bytes.zeros 64) 320
  SnP.overwriteBytes st (Bytes.zeros 16) 384

/-- `KeccakP1600times2_AddByte` (s:638-647). -/
def addByte (st : Bytes) (i : Nat) (b : Byte) (offset : Nat) : Option Bytes := do
  let r0 := 8 * i
  let r0 := r0 + offset / 8 * 16
  let r0 := r0 + offset % 8
  let r1 ← ldrb st r0
  strb st r0 (r1 ^^^ b)

/-- `KeccakP1600times2_AddBytes_LoopLanes` (s:684-692). -/
def addLane (data : Bytes) (s : Wr) : Option Wr := do
  let r4 ← ldr s.st s.r0
  let r5 ← ldr s.st (s.r0 + 4)
  let r6 ← ldr data s.r1
  let r7 ← ldr data (s.r1 + 4)
  let st ← str s.st s.r0 (r4 ^^^ r6)
  let st ← str st (s.r0 + 4) (r5 ^^^ r7)
  some ⟨st, s.r0 + 4 + 12, s.r1 + 4 + 4⟩

/-- `KeccakP1600times2_AddBytes` (s:658-707); the bytes are added as in `XoodooArm.addOne` (s:671-675, 698-702). -/
def addBytes (st : Bytes) (i : Nat) (data : Bytes) (offset : Nat) : Option Bytes := do
  some (← walk (addLane data) (addOne data) (fun s => { s with r0 := s.r0 + 8 }) (fun r0 => ⟨st, r0, 0⟩) i offset data.length).st

/-- `KeccakP1600times2_OverwriteBytes_LoopLanes` (s:774-777). -/
def overwriteLane (data : Bytes) (s : Wr) : Option Wr := do
  let r4 ← ldr data s.r1
  let r5 ← ldr data (s.r1 + 4)
  let st ← str s.st s.r0 r4
  let st ← str st (s.r0 + 4) r5
  some ⟨st, s.r0 + 4 + 12, s.r1 + 4 + 4⟩

/-- `KeccakP1600times2_OverwriteBytes` (s:750-791); the bytes are written as in `XoodooArm.overwriteOne` (s:763-764, 784-786). -/
def overwriteBytes (st : Bytes) (i : Nat) (data : Bytes) (offset : Nat) : Option Bytes := do
  some (← walk (overwriteLane data) (overwriteOne data) (fun s => { s with r0 := s.r0 + 8 }) (fun r0 => ⟨st, r0, 0⟩) i offset data.length).st

/-- `vldm` of one register `d`; `base` is the address of the buffer. -/
def vldm (base : Nat) (m : Bytes) (a : Nat) : Option Lane := if (base + a) % 4 = 0 then Simd.loadWord m a else none

/-- `vstm` of one register `d`; `base` is the address of the buffer. -/
def vstm (base : Nat) (m : Bytes) (a : Nat) (w : Lane) : Option Bytes := if (base + a) % 4 = 0 then Simd.storeWord m a w else none

/-- `KeccakP1600times2_OverwriteWithZeroes_LoopLanes` (s:853-854). -/
def zeroLane (s : Bytes × Nat) : Option (Bytes × Nat) := do
  let st ← vstm 0 s.1 s.2 0
  some (st, s.2 + 8 + 8)

/-- `KeccakP1600times2_OverwriteWithZeroes_LoopBytes` (s:862). -/
def zeroByte (s : Bytes × Nat) : Option (Bytes × Nat) := do
  let st ← strb s.1 s.2 0
  some (st, s.2 + 1)

/-- `KeccakP1600times2_OverwriteWithZeroes` (s:846-865). -/
def overwriteWithZeroes (st : Bytes) (i byteCount : Nat) : Option Bytes := do
  some (← fromLanes zeroLane zeroByte byteCount (st, 8 * i)).1

/-- `KeccakP1600times2_ExtractBytes_LoopLanes` (s:900-903). -/
def extractLane (st : Bytes) (s : Ex) : Option Ex := do
  let r4 ← ldr st s.r0
  let r5 ← ldr st (s.r0 + 4)
  some ⟨s.out ++ Xoodoo.bytesOfWord r4 ++ Xoodoo.bytesOfWord r5, s.r0 + 4 + 12⟩

/-- `KeccakP1600times2_ExtractBytes` (s:876-917); the bytes are written as in `XoodooArm.extractOne` (s:889-890, 910-912). -/
def extractBytes (st : Bytes) (i offset length : Nat) : Option Bytes := do
  some (← walk (extractLane st) (extractOne st) (fun s => { s with r0 := s.r0 + 8 }) (fun r0 => ⟨[], r0⟩) i offset length).out

/-- `KeccakP1600times2_ExtractAndAddBytes_LoopLanes` (s:1001-1008). -/
def extractAddLane (st input : Bytes) (s : Ea) : Option Ea := do
  let r4 ← ldr st s.r0
  let r5 ← ldr st (s.r0 + 4)
  let r6 ← ldr input s.r1
  let r7 ← ldr input (s.r1 + 4)
  some ⟨s.out ++ Xoodoo.bytesOfWord (r4 ^^^ r6) ++ Xoodoo.bytesOfWord (r5 ^^^ r7), s.r0 + 4 + 12, s.r1 + 4 + 4⟩

/-- `KeccakP1600times2_ExtractAndAddBytes` (s:974-1024); the bytes are written as in `XoodooArm.extractAddOne` (s:988-991, 1015-1018). -/
def extractAndAddBytes (st : Bytes) (i : Nat) (input : Bytes) (offset : Nat) : Option Bytes := do
  some (← walk (extractAddLane st input) (extractAddOne st input) (fun s => { s with r0 := s.r0 + 8 }) (fun r0 => ⟨[], r0, 0⟩) i offset
    input.length).out

/-! ### The functions on lanes

The second pointer is `Simd.ptr laneOffset 1` after the first one. -/

/-- `ldrd` on the states. -/
def ldrd (m : Bytes) (a : Nat) : Option (BitVec 32 × BitVec 32) := do
  if a % 4 = 0 then
    let x ← ldr m a
    let y ← ldr m (a + 4)
    some (x, y)
  else none

/-- `strd` on the states. -/
def strd (m : Bytes) (a : Nat) (x y : BitVec 32) : Option Bytes := do
  if a % 4 = 0 then
    let m ← str m a x
    str m (a + 4) y
  else none

/-- What is written (the states or the output) and the pointers. -/
structure Ln where
  out : Bytes
  (r0 r1 r3 : Nat)

/-- `KeccakP1600times2_AddLanesAll_Loop` (s:723-734). -/
def addRow (data : Bytes) (s : Ln) : Option Ln := do
  let r4 ← ldr data s.r1
  let r5 ← ldr data (s.r1 + 4)
  let (r6, r7) ← ldrd s.out s.r0
  let out ← strd s.out s.r0 (r6 ^^^ r4) (r7 ^^^ r5)
  let r0 := s.r0 + 8
  let r4 ← ldr data s.r3
  let r5 ← ldr data (s.r3 + 4)
  let (r6, r7) ← ldrd out r0
  let out ← strd out r0 (r6 ^^^ r4) (r7 ^^^ r5)
  some ⟨out, r0 + 8, s.r1 + 8, s.r3 + 8⟩

/-- `KeccakP1600times2_AddLanesAll` (s:717-739). -/
def addLanesAll (st data : Bytes) (laneCount laneOffset : Nat) : Option Bytes :=
  if laneCount = 0 then some st else do
    some (← countLoop (addRow data) (2 ^ 32) laneCount ⟨st, 0, 0, Simd.ptr laneOffset 1⟩).out

/-- One pair of lanes in the aligned loop of `KeccakP1600times2_OverwriteLanesAll` (s:809-811). -/
def overwriteRow (base : Nat) (data : Bytes) (s : Ln) : Option Ln := do
  let d0 ← vldm base data s.r1
  let d1 ← vldm base data s.r3
  let out ← vstm 0 s.out s.r0 d0
  let out ← vstm 0 out (s.r0 + 8) d1
  some ⟨out, s.r0 + 16, s.r1 + 8, s.r3 + 8⟩

/-- `KeccakP1600times2_OverwriteLanesAll_LoopAligned` (s:814-819). -/
def overwriteRows (base : Nat) (data : Bytes) (s : Ln) : Option Ln := do
  let d0 ← vldm base data s.r1
  let d2 ← vldm base data (s.r1 + 8)
  let d1 ← vldm base data s.r3
  let d3 ← vldm base data (s.r3 + 8)
  let out ← vstm 0 s.out s.r0 d0
  let out ← vstm 0 out (s.r0 + 8) d1
  let out ← vstm 0 out (s.r0 + 16) d2
  let out ← vstm 0 out (s.r0 + 24) d3
  some ⟨out, s.r0 + 32, s.r1 + 8 + 8, s.r3 + 8 + 8⟩

/-- `KeccakP1600times2_OverwriteLanesAll_LoopUnaligned` (s:826-832). -/
def overwriteRowU (data : Bytes) (s : Ln) : Option Ln := do
  let r4 ← ldr data s.r1
  let r5 ← ldr data (s.r1 + 4)
  let out ← strd s.out s.r0 r4 r5
  let r4 ← ldr data s.r3
  let r5 ← ldr data (s.r3 + 4)
  let out ← strd out (s.r0 + 8) r4 r5
  some ⟨out, s.r0 + 8 + 8, s.r1 + 8, s.r3 + 8⟩

/-- Aligned accesses two rows at a time, after one row if their number is odd (s:807-820, 933-946, 1044-1068). -/
def aligned (one two : Ln → Option Ln) (n : Nat) (s : Ln) : Option Ln :=
  if n % 2 = 0 then countLoop two (2 ^ 32) (n / 2) s
  else do
    let s ← one s
    if n / 2 = 0 then some s else countLoop two (2 ^ 32) (n / 2) s

/-- `KeccakP1600times2_OverwriteLanesAll` (s:801-836); `base` is the address of the data. -/
def overwriteLanesAll (base : Nat) (st data : Bytes) (laneCount laneOffset : Nat) : Option Bytes :=
  if laneCount = 0 then some st else
  if base % 8 ≠ 0 then do
    some (← countLoop (overwriteRowU data) (2 ^ 32) laneCount ⟨st, 0, 0, Simd.ptr laneOffset 1⟩).out
  else do
    some (← aligned (overwriteRow base data) (overwriteRows base data) laneCount ⟨st, 0, 0, Simd.ptr laneOffset 1⟩).out

/-- One pair of lanes in the aligned loop of `KeccakP1600times2_ExtractLanesAll` (s:935-937). -/
def extractRow (base : Nat) (st : Bytes) (s : Ln) : Option Ln := do
  let d0 ← vldm 0 st s.r0
  let d1 ← vldm 0 st (s.r0 + 8)
  let out ← vstm base s.out s.r1 d0
  let out ← vstm base out s.r3 d1
  some ⟨out, s.r0 + 16, s.r1 + 8, s.r3 + 8⟩

/-- `KeccakP1600times2_ExtractLanesAll_LoopAligned` (s:940-945). -/
def extractRows (base : Nat) (st : Bytes) (s : Ln) : Option Ln := do
  let d0 ← vldm 0 st s.r0
  let d1 ← vldm 0 st (s.r0 + 8)
  let d2 ← vldm 0 st (s.r0 + 16)
  let d3 ← vldm 0 st (s.r0 + 24)
  let out ← vstm base s.out s.r1 d0
  let out ← vstm base out (s.r1 + 8) d2
  let out ← vstm base out s.r3 d1
  let out ← vstm base out (s.r3 + 8) d3
  some ⟨out, s.r0 + 32, s.r1 + 8 + 8, s.r3 + 8 + 8⟩

/-- `KeccakP1600times2_ExtractLanesAll_LoopUnaligned` (s:952-958). -/
def extractRowU (st : Bytes) (s : Ln) : Option Ln := do
  let (r4, r5) ← ldrd st s.r0
  let out ← str s.out s.r1 r4
  let out ← str out (s.r1 + 4) r5
  let (r4, r5) ← ldrd st (s.r0 + 8)
  let out ← str out s.r3 r4
  let out ← str out (s.r3 + 4) r5
  some ⟨out, s.r0 + 8 + 8, s.r1 + 8, s.r3 + 8⟩

/-- `KeccakP1600times2_ExtractLanesAll` (s:927-962); `base` is the address of the output. -/
def extractLanesAll (base : Nat) (st out : Bytes) (laneCount laneOffset : Nat) : Option Bytes :=
  if laneCount = 0 then some out else
  if base % 8 ≠ 0 then do
    some (← countLoop (extractRowU st) (2 ^ 32) laneCount ⟨out, 0, 0, Simd.ptr laneOffset 1⟩).out
  else do
    some (← aligned (extractRow base st) (extractRows base st) laneCount ⟨out, 0, 0, Simd.ptr laneOffset 1⟩).out

/-- One pair of lanes in the aligned loop of `KeccakP1600times2_ExtractAndAddLanesAll` (s:1048-1053); the pointers to the input and those to the output move
together. -/
def extractAddRow (basei baseo : Nat) (st input : Bytes) (s : Ln) : Option Ln := do
  let d0 ← vldm 0 st s.r0
  let d1 ← vldm 0 st (s.r0 + 8)
  let d2 ← vldm basei input s.r1
  let d3 ← vldm basei input s.r3
  let out ← vstm baseo s.out s.r1 (d0 ^^^ d2)
  let out ← vstm baseo out s.r3 (d1 ^^^ d3)
  some ⟨out, s.r0 + 16, s.r1 + 8, s.r3 + 8⟩

/-- `KeccakP1600times2_ExtractAndAddLanesAll_LoopAligned` (s:1056-1067). -/
def extractAddRows (basei baseo : Nat) (st input : Bytes) (s : Ln) : Option Ln := do
  let d0 ← vldm 0 st s.r0
  let d1 ← vldm 0 st (s.r0 + 8)
  let d2 ← vldm 0 st (s.r0 + 16)
  let d3 ← vldm 0 st (s.r0 + 24)
  let d4 ← vldm basei input s.r1
  let d6 ← vldm basei input (s.r1 + 8)
  let d5 ← vldm basei input s.r3
  let d7 ← vldm basei input (s.r3 + 8)
  let out ← vstm baseo s.out s.r1 (d0 ^^^ d4)
  let out ← vstm baseo out (s.r1 + 8) (d2 ^^^ d6)
  let out ← vstm baseo out s.r3 (d1 ^^^ d5)
  let out ← vstm baseo out (s.r3 + 8) (d3 ^^^ d7)
  some ⟨out, s.r0 + 32, s.r1 + 8 + 8, s.r3 + 8 + 8⟩

/-- `KeccakP1600times2_ExtractAndAddLanesAll_LoopUnaligned` (s:1078-1092). -/
def extractAddRowU (st input : Bytes) (s : Ln) : Option Ln := do
  let (r8, r9) ← ldrd st s.r0
  let r6 ← ldr input s.r1
  let r7 ← ldr input (s.r1 + 4)
  let out ← str s.out s.r1 (r8 ^^^ r6)
  let out ← str out (s.r1 + 4) (r9 ^^^ r7)
  let (r8, r9) ← ldrd st (s.r0 + 8)
  let r6 ← ldr input s.r3
  let r7 ← ldr input (s.r3 + 4)
  let out ← str out s.r3 (r8 ^^^ r6)
  let out ← str out (s.r3 + 4) (r9 ^^^ r7)
  some ⟨out, s.r0 + 8 + 8, s.r1 + 8, s.r3 + 8⟩

/-- `KeccakP1600times2_ExtractAndAddLanesAll` (s:1036-1096); `basei` and `baseo` are the addresses of the input and of the output. -/
def extractAndAddLanesAll (basei baseo : Nat) (st input out : Bytes) (laneCount laneOffset : Nat) : Option Bytes :=
  if laneCount = 0 then some out else
  if (basei ||| baseo) % 8 ≠ 0 then do
    some (← countLoop (extractAddRowU st input) (2 ^ 32) laneCount ⟨out, 0, 0, Simd.ptr laneOffset 1⟩).out
  else do
    some (← aligned (extractAddRow basei baseo st input) (extractAddRows basei baseo st input) laneCount ⟨out, 0, 0, Simd.ptr laneOffset 1⟩).out

/-- The addresses of the buffers in the calls of the functions on lanes. -/
structure Addr where
  (data input output : Nat)

/-- The implementation (KeccakP-1600-times2-SnP.h:23-47). -/
def impl (J : Junk) (A : Addr) : Par where
  par := 2
  size := 400
  align := 32
  lane := 8
  initAll := initAll
  addByte := addByte
  addBytes := addBytes
  addLanesAll := addLanesAll
  overwriteBytes := overwriteBytes
  overwriteLanesAll := overwriteLanesAll A.data
  overwriteWithZeroes := overwriteWithZeroes
  permuteAll := permuteAll J
  extractBytes := extractBytes
  extractLanesAll := extractLanesAll A.output
  extractAndAddBytes := extractAndAddBytes
  extractAndAddLanesAll := extractAndAddLanesAll A.input A.output

end Times2Neon
