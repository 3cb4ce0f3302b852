import Verif.Model.X86

/-!
# Keccak-p[1600] in x86-64 assembly

Models the three files of `lib/low/KeccakP-1600/x86-64/`: `KeccakP-1600-x86-64-gas.s` ("s" below), and the two that are derived from it,
`KeccakP-1600-x86-64-shld-gas.s` and `KeccakP-1600-x86-64-gas_Apple.s`, in the way described in `Model/X86.lean`.  Compared without white space and
comments, the files differ as follows.

* `shld-gas.s` has `shld $k, r, r` in place of `rolq $k, r`, and two independent `xorq` in another order.  `Variant.shld` selects it.
* `gas_Apple.s` has the instructions that `s` has under `UseSIMD`, and computes the address of an entry of the jump table in another way.
  `Variant.simd` selects `UseSIMD` (0 in the other two files).
* The macros, the directives and the names of the labels, which have no influence on the instructions executed.

The functions on bytes work on the 200 bytes of the state, an address being an offset from the pointer to the state.  The macros of the permutation
access the state, and the 200 bytes they reserve on the stack, by whole lanes at the 25 offsets `_ba ... _su` only: there, each of the two areas is its 25
lanes, `Opt64.V`.  A load `movq _xx(\iState), r` is `let r := i.xx`, and a store `movq r, _xx(\oState)` is `let o_xx := r`.  Every other `let`
is one instruction; the names are those of the registers, with `rBi` and `rBo` for `rCi` and `rCo`, which are the same registers (s:99-100).
-/

namespace X64Asm

open KeccakP1600 (Lane Lanes wordOfBytes bytesOfWord lanesOfBytes bytesOfLanes)
open KeccakP1600.Opt64 (V copyToState copyFromState)
open X86

/-- Which of the files: see above. -/
structure Variant where
  shld : Bool
  simd : Bool

/-- `rolq $k, r`, or `shld $k, r, r`: a shift to the left, the bits that enter being the upper bits of the second operand. -/
def Variant.rol (v : Variant) (k : Nat) (r : Lane) : Lane :=
  if v.shld then (r <<< k) ||| (r >>> (64 - k)) else r.rotateLeft k

/-! ### The permutation -/

/-- The registers with which a round begins: the parities of three columns, and the lanes `si` and `so`. -/
structure Regs where
  (rCa rCe rCu rDi rDo : Lane)

/-- The registers after "prepare Theta bis". -/
structure Regs1 where
  (rCa rCe rCu rDa rDe rDi rDo rDu rBa rBe : Lane)

/-- "prepare Theta bis" and the first instructions of "result b" (s:105-140). -/
def prepareTheta (v : Variant) (i : V) (r : Regs) : Regs1 :=
  let ⟨rCa, rCe, rCu, rDi, rDo⟩ := r
  let rDa := rCe
  let rDa := v.rol 1 rDa
  let rBi := i.bi
  let rDi := rDi ^^^ i.gi
  let rDa := rDa ^^^ rCu
  let rBi := rBi ^^^ i.ki
  let rDi := rDi ^^^ i.mi
  let rBi := rBi ^^^ rDi
  let rDe := rBi
  let rDe := v.rol 1 rDe
  let rBo := i.bo
  let rDo := rDo ^^^ i.go
  let rDe := rDe ^^^ rCa
  let rBo := rBo ^^^ i.ko
  let rDo := rDo ^^^ i.mo
  let rBo := rBo ^^^ rDo
  let rDi := rBo
  let rDi := v.rol 1 rDi
  let rDo := rCu
  let rDi := rDi ^^^ rCe
  let rDo := v.rol 1 rDo
  let rDu := rCa
  let rDo := rDo ^^^ rBi
  let rDu := v.rol 1 rDu
  let rBa := i.ba
  let rBe := i.ge
  let rDu := rDu ^^^ rBo
  ⟨rCa, rCe, rCu, rDa, rDe, rDi, rDo, rDu, rBa, rBe⟩

/-- Five lanes of the output, and the parities so far. -/
structure Plane where
  (a e i o u : Lane)
  (rCa rCe rCu : Lane)

/-- "result b" (s:141-180). -/
def resultB (v : Variant) (rc : Lane) (last : Bool) (i : V) (r : Regs1) : Plane :=
  let ⟨_, rCe, _, rDa, rDe, rDi, rDo, rDu, rBa, rBe⟩ := r
  let rBi := i.ki
  let rBo := i.mo
  let rBu := i.su
  let rBe := rBe ^^^ rDe
  let rBe := v.rol 44 rBe
  let rBi := rBi ^^^ rDi
  let rBa := rBa ^^^ rDa
  let rBi := v.rol 43 rBi
  let rCa := rBe
  let rT1 := rc
  let rCa := rCa ||| rBi
  let rT1 := rT1 ^^^ rBa
  let rCa := rCa ^^^ rT1
  let o_ba := rCa
  let rBu := rBu ^^^ rDu
  let rBu := v.rol 14 rBu
  let rCu := rBa
  let rCu := rCu &&& rBe
  let rCu := rCu ^^^ rBu
  let o_bu := rCu
  let rBo := rBo ^^^ rDo
  let rBo := v.rol 21 rBo
  let rT1 := rBo
  let rT1 := rT1 &&& rBu
  let rT1 := rT1 ^^^ rBi
  let o_bi := rT1
  let rBi := ~~~ rBi
  let rBu := rBu ||| rBa
  let rBi := rBi ||| rBo
  let rBu := rBu ^^^ rBo
  let rBi := rBi ^^^ rBe
  let o_bo := rBu
  let o_be := rBi
  let rCe := if last then rCe else rBi
  ⟨o_ba, o_be, o_bi, o_bo, o_bu, rCa, rCe, rCu⟩

/-- "result g" (s:182-229). -/
def resultG (v : Variant) (last : Bool) (i : V) (r : Regs1) (p : Plane) : Plane :=
  let ⟨_, _, _, rDa, rDe, rDi, rDo, rDu, _, _⟩ := r
  let ⟨_, _, _, _, _, rCa, rCe, rCu⟩ := p
  let rBe := i.gu
  let rBe := rBe ^^^ rDu
  let rBi := i.ka
  let rBe := v.rol 20 rBe
  let rBi := rBi ^^^ rDa
  let rBi := v.rol 3 rBi
  let rBa := i.bo
  let rT1 := rBe
  let rT1 := rT1 ||| rBi
  let rBa := rBa ^^^ rDo
  let rBo := i.me
  let rBu := i.si
  let rBa := v.rol 28 rBa
  let rT1 := rT1 ^^^ rBa
  let o_ga := rT1
  let rCa := if last then rCa else rCa ^^^ rT1
  let rBo := rBo ^^^ rDe
  let rBo := v.rol 45 rBo
  let rT1 := rBi
  let rT1 := rT1 &&& rBo
  let rT1 := rT1 ^^^ rBe
  let o_ge := rT1
  let rCe := if last then rCe else rCe ^^^ rT1
  let rBu := rBu ^^^ rDi
  let rBu := v.rol 61 rBu
  let rT1 := rBu
  let rT1 := rT1 ||| rBa
  let rT1 := rT1 ^^^ rBo
  let o_go := rT1
  let rBa := rBa &&& rBe
  let rBa := rBa ^^^ rBu
  let o_gu := rBa
  let rBu := ~~~ rBu
  let rCu := if last then rCu else rCu ^^^ rBa
  let rBo := rBo ||| rBu
  let rBo := rBo ^^^ rBi
  let o_gi := rBo
  ⟨o_ga, o_ge, o_gi, o_go, o_gu, rCa, rCe, rCu⟩

/-- "result k" (s:231-279). -/
def resultK (v : Variant) (last : Bool) (i : V) (r : Regs1) (p : Plane) : Plane :=
  let ⟨_, _, _, rDa, rDe, rDi, rDo, rDu, _, _⟩ := r
  let ⟨_, _, _, _, _, rCa, rCe, rCu⟩ := p
  let rBa := i.be
  let rBe := i.gi
  let rBi := i.ko
  let rBo := i.mu
  let rBu := i.sa
  let rBe := rBe ^^^ rDi
  let rBe := v.rol 6 rBe
  let rBi := rBi ^^^ rDo
  let rBi := v.rol 25 rBi
  let rT1 := rBe
  let rT1 := rT1 ||| rBi
  let rBa := rBa ^^^ rDe
  let rBa := v.rol 1 rBa
  let rT1 := rT1 ^^^ rBa
  let o_ka := rT1
  let rCa := if last then rCa else rCa ^^^ rT1
  let rBo := rBo ^^^ rDu
  let rBo := v.rol 8 rBo
  let rT1 := rBi
  let rT1 := rT1 &&& rBo
  let rT1 := rT1 ^^^ rBe
  let o_ke := rT1
  let rCe := if last then rCe else rCe ^^^ rT1
  let rBu := rBu ^^^ rDa
  let rBu := v.rol 18 rBu
  let rBo := ~~~ rBo
  let rT1 := rBo
  let rT1 := rT1 &&& rBu
  let rT1 := rT1 ^^^ rBi
  let o_ki := rT1
  let rT1 := rBu
  let rT1 := rT1 ||| rBa
  let rT1 := rT1 ^^^ rBo
  let o_ko := rT1
  let rBa := rBa &&& rBe
  let rBa := rBa ^^^ rBu
  let o_ku := rBa
  let rCu := if last then rCu else rCu ^^^ rBa
  ⟨o_ka, o_ke, o_ki, o_ko, o_ku, rCa, rCe, rCu⟩

/-- "result m" (s:281-328). -/
def resultM (v : Variant) (last : Bool) (i : V) (r : Regs1) (p : Plane) : Plane :=
  let ⟨_, _, _, rDa, rDe, rDi, rDo, rDu, _, _⟩ := r
  let ⟨_, _, _, _, _, rCa, rCe, rCu⟩ := p
  let rBe := i.ga
  let rBe := rBe ^^^ rDa
  let rBi := i.ke
  let rBe := v.rol 36 rBe
  let rBi := rBi ^^^ rDe
  let rBa := i.bu
  let rBi := v.rol 10 rBi
  let rT1 := rBe
  let rBo := i.mi
  let rT1 := rT1 &&& rBi
  let rBa := rBa ^^^ rDu
  let rBu := i.so
  let rBa := v.rol 27 rBa
  let rT1 := rT1 ^^^ rBa
  let o_ma := rT1
  let rCa := if last then rCa else rCa ^^^ rT1
  let rBo := rBo ^^^ rDi
  let rBo := v.rol 15 rBo
  let rT1 := rBi
  let rT1 := rT1 ||| rBo
  let rT1 := rT1 ^^^ rBe
  let o_me := rT1
  let rCe := if last then rCe else rCe ^^^ rT1
  let rBu := rBu ^^^ rDo
  let rBu := v.rol 56 rBu
  let rBo := ~~~ rBo
  let rT1 := rBo
  let rT1 := rT1 ||| rBu
  let rT1 := rT1 ^^^ rBi
  let o_mi := rT1
  let rBe := rBe ||| rBa
  let rBe := rBe ^^^ rBu
  let o_mu := rBe
  let rBu := rBu &&& rBa
  let rBu := rBu ^^^ rBo
  let o_mo := rBu
  let rCu := if last then rCu else rCu ^^^ rBe
  ⟨o_ma, o_me, o_mi, o_mo, o_mu, rCa, rCe, rCu⟩

/-- "result s" (s:330-379), with `rDi` and `rDo`. -/
def resultS (v : Variant) (last : Bool) (i : V) (r : Regs1) (p : Plane) : Plane × Lane × Lane :=
  let ⟨_, _, _, rDa, rDe, rDi, rDo, rDu, _, _⟩ := r
  let ⟨_, _, _, _, _, rCa, rCe, rCu⟩ := p
  let rBa := i.bi
  let rBe := i.go
  let rBi := i.ku
  let rBa := rBa ^^^ rDi
  let rBo := i.ma
  let rBa := v.rol 62 rBa
  let rBe := rBe ^^^ rDo
  let rBu := i.se
  let rBe := v.rol 55 rBe
  let rBi := rBi ^^^ rDu
  let rDu := rBa
  let rBu := rBu ^^^ rDe
  let rBu := v.rol 2 rBu
  let rDu := rDu &&& rBe
  let rDu := rDu ^^^ rBu
  let o_su := rDu
  let rBi := v.rol 39 rBi
  let rCu := if last then rCu else rCu ^^^ rDu
  let rBe := ~~~ rBe
  let rBo := rBo ^^^ rDa
  let rDa := rBe
  let rDa := rDa &&& rBi
  let rDa := rDa ^^^ rBa
  let o_sa := rDa
  let rCa := if last then rCa else rCa ^^^ rDa
  let rBo := v.rol 41 rBo
  let rDe := rBi
  let rDe := rDe ||| rBo
  let rDe := rDe ^^^ rBe
  let o_se := rDe
  let rCe := if last then rCe else rCe ^^^ rDe
  let rDi := rBo
  let rDo := rBu
  let rDi := rDi &&& rBu
  let rDo := rDo ||| rBa
  let rDi := rDi ^^^ rBi
  let rDo := rDo ^^^ rBo
  let o_si := rDi
  let o_so := rDo
  (⟨o_sa, o_se, o_si, o_so, o_su, rCa, rCe, rCu⟩, rDi, rDo)

/-- `mKeccakRound` (s:103-381) on the input `i`: the output and the registers.  It writes all of the lanes of the output, and does not read them. -/
def mKeccakRound (v : Variant) (rc : Lane) (last : Bool) (i : V) (r : Regs) : V × Regs :=
  let r1 := prepareTheta v i r
  let b := resultB v rc last i r1
  let g := resultG v last i r1 b
  let k := resultK v last i r1 g
  let m := resultM v last i r1 k
  let ⟨s, rDi, rDo⟩ := resultS v last i r1 m
  (⟨b.a, b.e, b.i, b.o, b.u, g.a, g.e, g.i, g.o, g.u, k.a, k.e, k.i, k.o, k.u, m.a, m.e, m.i, m.o, m.u, s.a, s.e, s.i, s.o, s.u⟩,
    ⟨s.rCa, s.rCe, s.rCu, rDi, rDo⟩)

/-- The state, the area on the stack and the registers. -/
structure M where
  state : V
  stack : V
  r : Regs

/-- One line `mKeccakRound iState, oState, rc, lastRound`: `toStack` if it goes from the state to the stack. -/
structure Line where
  toStack : Bool
  rc : Lane
  last : Bool
  deriving DecidableEq

/-- The round of a line. -/
def Line.exec (v : Variant) (m : M) (l : Line) : M :=
  if l.toStack then
    let o := mKeccakRound v l.rc l.last m.state m.r
    { m with stack := o.1, r := o.2 }
  else
    let o := mKeccakRound v l.rc l.last m.stack m.r
    { m with state := o.1, r := o.2 }

/-- The instructions before the first round (s:387-407, 428-448, 912-932): the parities, and two lanes. -/
def prepare (i : V) : Regs :=
  let rCa := i.ba
  let rCe := i.be
  let rCu := i.bu
  let rCa := rCa ^^^ i.ga
  let rCe := rCe ^^^ i.ge
  let rCu := rCu ^^^ i.gu
  let rCa := rCa ^^^ i.ka
  let rCe := rCe ^^^ i.ke
  let rCu := rCu ^^^ i.ku
  let rCa := rCa ^^^ i.ma
  let rCe := rCe ^^^ i.me
  let rCu := rCu ^^^ i.mu
  let rCa := rCa ^^^ i.sa
  let rCe := rCe ^^^ i.se
  let rDi := i.si
  let rDo := i.so
  let rCu := rCu ^^^ i.su
  ⟨rCa, rCe, rCu, rDi, rDo⟩

/-- The rounds of `mKeccakPermutation12` (s:409-420). -/
def lines12 : List Line := [
  ⟨true, 0x000000008000808b, false⟩,
  ⟨false, 0x800000000000008b, false⟩,
  ⟨true, 0x8000000000008089, false⟩,
  ⟨false, 0x8000000000008003, false⟩,
  ⟨true, 0x8000000000008002, false⟩,
  ⟨false, 0x8000000000000080, false⟩,
  ⟨true, 0x000000000000800a, false⟩,
  ⟨false, 0x800000008000000a, false⟩,
  ⟨true, 0x8000000080008081, false⟩,
  ⟨false, 0x8000000000008080, false⟩,
  ⟨true, 0x0000000080000001, false⟩,
  ⟨false, 0x8000000080008008, true⟩]

/-- The rounds of `mKeccakPermutation24` (s:450-474). -/
def lines24 : List Line := [
  ⟨true, 0x0000000000000001, false⟩,
  ⟨false, 0x0000000000008082, false⟩,
  ⟨true, 0x800000000000808a, false⟩,
  ⟨false, 0x8000000080008000, false⟩,
  ⟨true, 0x000000000000808b, false⟩,
  ⟨false, 0x0000000080000001, false⟩,
  ⟨true, 0x8000000080008081, false⟩,
  ⟨false, 0x8000000000008009, false⟩,
  ⟨true, 0x000000000000008a, false⟩,
  ⟨false, 0x0000000000000088, false⟩,
  ⟨true, 0x0000000080008009, false⟩,
  ⟨false, 0x000000008000000a, false⟩,
  ⟨true, 0x000000008000808b, false⟩,
  ⟨false, 0x800000000000008b, false⟩,
  ⟨true, 0x8000000000008089, false⟩,
  ⟨false, 0x8000000000008003, false⟩,
  ⟨true, 0x8000000000008002, false⟩,
  ⟨false, 0x8000000000000080, false⟩,
  ⟨true, 0x000000000000800a, false⟩,
  ⟨false, 0x800000008000000a, false⟩,
  ⟨true, 0x8000000080008081, false⟩,
  ⟨false, 0x8000000000008080, false⟩,
  ⟨true, 0x0000000080000001, false⟩,
  ⟨false, 0x8000000080008008, true⟩]

/-- The rounds of `KeccakP1600_Permute_Nrounds`, from the label `KeccakP1600_Permute_Nrounds24` on (s:991-1038). -/
def linesN : List Line := [
  ⟨true, 0x0000000000000001, false⟩,
  ⟨false, 0x0000000000008082, false⟩,
  ⟨true, 0x800000000000808a, false⟩,
  ⟨false, 0x8000000080008000, false⟩,
  ⟨true, 0x000000000000808b, false⟩,
  ⟨false, 0x0000000080000001, false⟩,
  ⟨true, 0x8000000080008081, false⟩,
  ⟨false, 0x8000000000008009, false⟩,
  ⟨true, 0x000000000000008a, false⟩,
  ⟨false, 0x0000000000000088, false⟩,
  ⟨true, 0x0000000080008009, false⟩,
  ⟨false, 0x000000008000000a, false⟩,
  ⟨true, 0x000000008000808b, false⟩,
  ⟨false, 0x800000000000008b, false⟩,
  ⟨true, 0x8000000000008089, false⟩,
  ⟨false, 0x8000000000008003, false⟩,
  ⟨true, 0x8000000000008002, false⟩,
  ⟨false, 0x8000000000000080, false⟩,
  ⟨true, 0x000000000000800a, false⟩,
  ⟨false, 0x800000008000000a, false⟩,
  ⟨true, 0x8000000080008081, false⟩,
  ⟨false, 0x8000000000008080, false⟩,
  ⟨true, 0x0000000080000001, false⟩,
  ⟨false, 0x8000000080008008, true⟩]

/-- `KeccakP1600_Permute_NroundsTable` (s:1043-1067): for each entry, how many rounds of `linesN` come before the label. -/
def nroundsTable : List Nat := [23, 22, 21, 20, 19, 18, 17, 16, 15, 14, 13, 12, 11, 10, 9, 8, 7, 6, 5, 4, 3, 2, 1, 0]

/-- The lanes of the state, for the macros of the permutation. -/
def loadV (st : Bytes) : Option V := if st.length = 200 then some (copyFromState (lanesOfBytes st)) else none

/-- The bytes of the lanes. -/
def storeV (A : V) : Bytes := bytesOfLanes (copyToState A)

/-- `mKeccakPermutation12` and `mKeccakPermutation24` (s:383-422, 424-476); `junk` is what is on the stack. -/
def permutation (v : Variant) (lines : List Line) (junk : V) (st : Bytes) : Option Bytes := do
  let A ← loadV st
  let m := lines.foldl (Line.exec v) ⟨A, junk, prepare A⟩
  some (storeV m.state)

/-- `KeccakP1600_Permute_12rounds` (s:1077-1081). -/
def permute12 (v : Variant) (junk : V) (st : Bytes) : Option Bytes := permutation v lines12 junk st

/-- `KeccakP1600_Permute_24rounds` (s:1091-1095). -/
def permute24 (v : Variant) (junk : V) (st : Bytes) : Option Bytes := permutation v lines24 junk st

/-- The copy of the state to the stack when the number of rounds is odd (s:934-985). -/
def copyIfOdd (rT1 : Nat) (m : M) : M := if rT1 &&& 1 ≠ 0 then { m with stack := m.state } else m

/-- `KeccakP1600_Permute_Nrounds` (s:907-1041).  The address read is 8 bytes before the table plus `8 * nrounds`: for no rounds at all it is that of
the instructions before the table, for more than 24 rounds it is after the table, and the jump is undefined. -/
def permuteNrounds (v : Variant) (junk : V) (st : Bytes) (nrounds : Nat) : Option Bytes := do
  let A ← loadV st
  let m := copyIfOdd nrounds ⟨A, junk, prepare A⟩
  let rT1 := nrounds * 2 ^ 3
  if rT1 < 8 then none
  else do
    let entry ← nroundsTable[(rT1 - 8) / 8]?
    let m := (linesN.drop entry).foldl (Line.exec v) m
    some (storeV m.state)

/-! ### Access to the bytes of the state -/

/-- `movdqu` to the memory: the two quadwords of the register. -/
def store128 (st : Bytes) (a : Nat) (lo hi : Lane) : Option Bytes := do
  let st ← wr64 st a lo
  wr64 st (a + 8) hi

/-- The part of `KeccakP1600_Initialize` without `UseSIMD` (s:588-612). -/
def initPlain (st : Bytes) : Option Bytes := do
  let rax : Lane := 0
  let rcx : Lane := ~~~ 0
  let st ← wr64 st (0*8) rax
  let st ← wr64 st (1*8) rcx
  let st ← wr64 st (2*8) rcx
  let st ← wr64 st (3*8) rax
  let st ← wr64 st (4*8) rax
  let st ← wr64 st (5*8) rax
  let st ← wr64 st (6*8) rax
  let st ← wr64 st (7*8) rax
  let st ← wr64 st (8*8) rcx
  let st ← wr64 st (9*8) rax
  let st ← wr64 st (10*8) rax
  let st ← wr64 st (11*8) rax
  let st ← wr64 st (12*8) rcx
  let st ← wr64 st (13*8) rax
  let st ← wr64 st (14*8) rax
  let st ← wr64 st (15*8) rax
  let st ← wr64 st (16*8) rax
  let st ← wr64 st (17*8) rcx
  let st ← wr64 st (18*8) rax
  let st ← wr64 st (19*8) rax
  let st ← wr64 st (20*8) rcx
  let st ← wr64 st (21*8) rax
  let st ← wr64 st (22*8) rax
  let st ← wr64 st (23*8) rax
  let st ← wr64 st (24*8) rax
  some st

/-- The part of `KeccakP1600_Initialize` with `UseSIMD` (s:614-633). -/
def initSimd (st : Bytes) : Option Bytes := do
  let rax : Lane := 0
  let rcx : Lane := ~~~ 0
  let st ← wr64 st (0*8) rax
  let st ← wr64 st (1*8) rcx
  let st ← wr64 st (2*8) rcx
  let st ← wr64 st (3*8) rax
  let st ← store128 st (4*8) 0 0
  let st ← store128 st (6*8) 0 0
  let st ← wr64 st (8*8) rcx
  let st ← wr64 st (9*8) rax
  let st ← store128 st (10*8) 0 0
  let st ← wr64 st (12*8) rcx
  let st ← wr64 st (13*8) rax
  let st ← store128 st (14*8) 0 0
  let st ← wr64 st (16*8) rax
  let st ← wr64 st (17*8) rcx
  let st ← store128 st (18*8) 0 0
  let st ← wr64 st (20*8) rcx
  let st ← wr64 st (21*8) rax
  let st ← store128 st (22*8) 0 0
  let st ← wr64 st (24*8) rax
  some st

/-- `KeccakP1600_Initialize` (s:583-635), on a state with any contents. -/
def init (v : Variant) (st : Bytes) : Option Bytes := if v.simd then initSimd st else initPlain st

/-- The macro `KeccakP1600_AddByte` of the header (KeccakP-1600-SnP.h:37). -/
def addByteMacro (st : Bytes) (data : Byte) (offset : Nat) : Option Bytes := do wr8 st offset ((← rd8 st offset) ^^^ data)

/-- The function `KeccakP1600_AddByte` (s:645-649), which the macro hides; `%al` is the low byte of the argument. -/
def addByte (st : Bytes) (data : Lane) (offset : Nat) : Option Bytes := do
  let rax := data
  wr8 st offset ((← rd8 st offset) ^^^ rax.setWidth 8)

/-- `xorq r, (a)`. -/
def xorMem (st : Bytes) (a : Nat) (r : Lane) : Option Bytes := do wr64 st a ((← rd64 st a) ^^^ r)

/-- The four instructions on `%xmm0` and `%xmm1` with which `mXor128` adds 16 bytes (s:511-514). -/
def xorXmm (data : Bytes) (input : Nat) (st : Bytes) (output offset : Nat) : Option Bytes := do
  let lo ← rd64 data (input + offset)
  let hi ← rd64 data (input + offset + 8)
  let lo' ← rd64 st (output + offset)
  let hi' ← rd64 st (output + offset + 8)
  store128 st (output + offset) (lo ^^^ lo') (hi ^^^ hi')

/-- `mXor128` (s:504-516). -/
def mXor128 (v : Variant) (data : Bytes) (input : Nat) (st : Bytes) (output offset : Nat) : Option Bytes :=
  if v.simd then xorXmm data input st output offset
  else do
    let rT1a ← rd64 data (input + offset)
    let rT1e ← rd64 data (input + (offset + 8))
    let st ← xorMem st (output + offset) rT1a
    xorMem st (output + (offset + 8)) rT1e

/-- `mXor256` (s:518-538). -/
def mXor256 (v : Variant) (data : Bytes) (input : Nat) (st : Bytes) (output offset : Nat) : Option Bytes :=
  if v.simd then do
    let st ← xorXmm data input st output offset
    xorXmm data input st output (offset + 16)
  else do
    let rT1a ← rd64 data (input + offset)
    let rT1e ← rd64 data (input + (offset + 8))
    let rT1i ← rd64 data (input + (offset + 16))
    let rT1o ← rd64 data (input + (offset + 24))
    let st ← xorMem st (output + offset) rT1a
    let st ← xorMem st (output + (offset + 8)) rT1e
    let st ← xorMem st (output + (offset + 16)) rT1i
    xorMem st (output + (offset + 24)) rT1o

/-- `mXor512` (s:540-562). -/
def mXor512 (v : Variant) (data : Bytes) (input : Nat) (st : Bytes) (output offset : Nat) : Option Bytes :=
  if v.simd then do
    let st ← xorXmm data input st output offset
    let st ← xorXmm data input st output (offset + 16)
    let st ← xorXmm data input st output (offset + 32)
    xorXmm data input st output (offset + 48)
  else do
    let st ← mXor256 v data input st output offset
    mXor256 v data input st output (offset + 32)

/-- The state, the pointer to the data and the pointer to the state. -/
abbrev P := Bytes × Nat × Nat

/-- Sixteen lanes (s:669-672). -/
def add16 (v : Variant) (data : Bytes) (p : P) : Option P := do
  let ⟨st, arg2, arg1⟩ := p
  let st ← mXor512 v data arg2 st arg1 0
  let st ← mXor512 v data arg2 st arg1 64
  some (st, arg2 + 128, arg1 + 128)

/-- Eight lanes (s:676-678). -/
def add8 (v : Variant) (data : Bytes) (p : P) : Option P := do
  let ⟨st, arg2, arg1⟩ := p
  let st ← mXor512 v data arg2 st arg1 0
  some (st, arg2 + 64, arg1 + 64)

/-- Four lanes (s:682-684). -/
def add4 (v : Variant) (data : Bytes) (p : P) : Option P := do
  let ⟨st, arg2, arg1⟩ := p
  let st ← mXor256 v data arg2 st arg1 0
  some (st, arg2 + 32, arg1 + 32)

/-- Two lanes (s:688-690). -/
def add2 (v : Variant) (data : Bytes) (p : P) : Option P := do
  let ⟨st, arg2, arg1⟩ := p
  let st ← mXor128 v data arg2 st arg1 0
  some (st, arg2 + 16, arg1 + 16)

/-- One lane (s:694-697). -/
def add1 (data : Bytes) (p : P) : Option P := do
  let ⟨st, arg2, arg1⟩ := p
  let st ← xorMem st arg1 (← rd64 data arg2)
  some (st, arg2 + 8, arg1 + 8)

/-- `testq $bit, arg6`, and the jump over `step` if the bit is not set. -/
def onBit (bit arg6 : Nat) (step : P → Option P) (p : P) : Option P := if arg6 &&& bit ≠ 0 then step p else some p

/-- The whole lanes (s:664-697). -/
def addLanes (v : Variant) (data : Bytes) (arg4 : Nat) (p : P) : Option P :=
  if arg4 &&& 0xF8 = 0 then some p
  else do
    let arg6 := arg4 / 2 ^ 3
    let p ← onBit 16 arg6 (add16 v data) p
    let p ← onBit 8 arg6 (add8 v data) p
    let p ← onBit 4 arg6 (add4 v data) p
    let p ← onBit 2 arg6 (add2 v data) p
    onBit 1 arg6 (add1 data) p

/-- `KeccakP1600_AddBytes` (s:659-713); `X86.bytesLoop` is the loop over the last bytes.  The result is the state and the pointers to the data and to
the state, which the fast loop uses. -/
def addBytesP (v : Variant) (st data : Bytes) (arg2 offset length : Nat) : Option P := do
  let p ← addLanes v data length (st, arg2, offset)
  let arg4 := length &&& 7
  if arg4 = 0 then some p else bytesLoop .xor data 8 p.1 p.2.1 p.2.2 arg4

/-- `KeccakP1600_AddBytes`: the state. -/
def addBytes (v : Variant) (st data : Bytes) (offset length : Nat) : Option Bytes := do some (← addBytesP v st data 0 offset length).1

/-- `KeccakLaneComplementTable` (s:716-746). -/
def complementTable : List Lane := [
  0, 0xFFFFFFFFFFFFFFFF, 0xFFFFFFFFFFFFFFFF, 0, 0,
  0, 0, 0, 0xFFFFFFFFFFFFFFFF, 0,
  0, 0, 0xFFFFFFFFFFFFFFFF, 0, 0,
  0, 0, 0xFFFFFFFFFFFFFFFF, 0, 0,
  0xFFFFFFFFFFFFFFFF, 0, 0, 0, 0]

/-- The table in memory. -/
def tableBytes : Bytes := complementTable.flatMap bytesOfWord

/-- A loop `..._LanesLoop` with the body `body`, which includes the additions to the pointers, and the counter `n`: `subq $8, n` and `jnc`. -/
def lanesLoop {σ : Type} (body : σ → Option σ) : Nat → σ → Nat → Option (σ × Nat)
  | 0, _, _ => none
  | fuel + 1, s, n => do
    let s ← body s
    if n < 8 then some (s, sub64 n 8) else lanesLoop body fuel s (sub64 n 8)

/-- A loop `..._BytesLoop`: `subq $1, n` and `jnz`. -/
def byteLoop {σ : Type} (body : σ → Option σ) : Nat → σ → Nat → Option σ
  | 0, _, _ => none
  | fuel + 1, s, n => do
    let s ← body s
    let n := sub64 n 1
    if n ≠ 0 then byteLoop body fuel s n else some s

/-- `subq $8, n`, the jump over the lanes if that carries, and the loop over the lanes (s:759-769, 795-804, 831-841, 869-880). -/
def lanesPart {σ : Type} (lane : σ → Option σ) (s : σ) (n : Nat) : Option (σ × Nat) :=
  if n < 8 then some (s, sub64 n 8) else lanesLoop lane (2 ^ 32) s (sub64 n 8)

/-- What `KeccakP1600_OverwriteBytes`, `KeccakP1600_OverwriteWithZeroes`, `KeccakP1600_ExtractBytes` and `KeccakP1600_ExtractAndAddBytes` have in
common (s:760-781, 795-817, 832-855, 870-897): `subq $8, n`, the two loops, and `addq $8, n` between them. -/
def lanesThenBytes {σ : Type} (lane byte : σ → Option σ) (s : σ) (n : Nat) : Option σ := do
  let p ← lanesPart lane s n
  let n := add64 p.2 8
  if n = 0 then some p.1 else byteLoop byte (2 ^ 32) p.1 n

/-- The state, the pointers to the data, to the table and to the state. -/
structure Ow where
  st : Bytes
  (arg2 arg5 arg1 : Nat)

/-- The body of `KeccakP1600_OverwriteBytes_LanesLoop` (s:762-767). -/
def overwriteLane (data : Bytes) (s : Ow) : Option Ow := do
  let rT1 ← rd64 data s.arg2
  let rT1 := rT1 ^^^ (← rd64 tableBytes s.arg5)
  let st ← wr64 s.st s.arg1 rT1
  some ⟨st, s.arg2 + 8, s.arg5 + 8, s.arg1 + 8⟩

/-- The body of `KeccakP1600_OverwriteBytes_BytesLoop` (s:774-779). -/
def overwriteByte (data : Bytes) (s : Ow) : Option Ow := do
  let al ← rd8 data s.arg2
  let al := al ^^^ (← rd8 tableBytes s.arg5)
  let st ← wr8 s.st s.arg1 al
  some ⟨st, s.arg2 + 1, s.arg5 + 1, s.arg1 + 1⟩

/-- `KeccakP1600_OverwriteBytes` (s:755-783). -/
def overwriteBytes (st data : Bytes) (offset length : Nat) : Option Bytes := do
  some (← lanesThenBytes (overwriteLane data) (overwriteByte data) ⟨st, 0, offset, offset⟩ length).st

/-- The state, the pointers to the table and to the state. -/
structure Oz where
  st : Bytes
  (arg5 arg1 : Nat)

/-- The body of `KeccakP1600_OverwriteWithZeroes_LanesLoop` (s:798-802). -/
def zeroLane (s : Oz) : Option Oz := do
  let rT1 : Lane := 0
  let rT1 := rT1 ^^^ (← rd64 tableBytes s.arg5)
  let st ← wr64 s.st s.arg1 rT1
  some ⟨st, s.arg5 + 8, s.arg1 + 8⟩

/-- The body of `KeccakP1600_OverwriteWithZeroes_BytesLoop` (s:809-813). -/
def zeroByte (s : Oz) : Option Oz := do
  let al : Byte := 0
  let al := al ^^^ (← rd8 tableBytes s.arg5)
  let st ← wr8 s.st s.arg1 al
  some ⟨st, s.arg5 + 1, s.arg1 + 1⟩

/-- `KeccakP1600_OverwriteWithZeroes` (s:793-817). -/
def overwriteWithZeroes (st : Bytes) (byteCount : Nat) : Option Bytes := do some (← lanesThenBytes zeroLane zeroByte ⟨st, 0, 0⟩ byteCount).st

/-- The bytes written, the pointers to the table and to the state. -/
structure Ex where
  out : Bytes
  (arg5 arg1 : Nat)

/-- The body of `KeccakP1600_ExtractBytes_LanesLoop` (s:834-839). -/
def extractLane (st : Bytes) (s : Ex) : Option Ex := do
  let rT1 ← rd64 st s.arg1
  let rT1 := rT1 ^^^ (← rd64 tableBytes s.arg5)
  some ⟨s.out ++ bytesOfWord rT1, s.arg5 + 8, s.arg1 + 8⟩

/-- The body of `KeccakP1600_ExtractBytes_BytesLoop` (s:846-851). -/
def extractByte (st : Bytes) (s : Ex) : Option Ex := do
  let al ← rd8 st s.arg1
  let al := al ^^^ (← rd8 tableBytes s.arg5)
  some ⟨s.out ++ [al], s.arg5 + 1, s.arg1 + 1⟩

/-- `KeccakP1600_ExtractBytes` (s:827-855). -/
def extractBytes (st : Bytes) (offset length : Nat) : Option Bytes := do
  some (← lanesThenBytes (extractLane st) (extractByte st) ⟨[], offset, offset⟩ length).out

/-- The bytes written, the pointers to the input, to the table and to the state. -/
structure Ea where
  out : Bytes
  (arg2 arg6 arg1 : Nat)

/-- The body of `KeccakP1600_ExtractAndAddBytes_LanesLoop` (s:872-879). -/
def extractAddLane (st input : Bytes) (s : Ea) : Option Ea := do
  let rT1 ← rd64 st s.arg1
  let rT1 := rT1 ^^^ (← rd64 tableBytes s.arg6)
  let rT1 := rT1 ^^^ (← rd64 input s.arg2)
  some ⟨s.out ++ bytesOfWord rT1, s.arg2 + 8, s.arg6 + 8, s.arg1 + 8⟩

/-- The body of `KeccakP1600_ExtractAndAddBytes_BytesLoop` (s:886-893). -/
def extractAddByte (st input : Bytes) (s : Ea) : Option Ea := do
  let al ← rd8 st s.arg1
  let al := al ^^^ (← rd8 tableBytes s.arg6)
  let al := al ^^^ (← rd8 input s.arg2)
  some ⟨s.out ++ [al], s.arg2 + 1, s.arg6 + 1, s.arg1 + 1⟩

/-- `KeccakP1600_ExtractAndAddBytes` (s:865-897). -/
def extractAndAddBytes (st input : Bytes) (offset length : Nat) : Option Bytes := do
  some (← lanesThenBytes (extractAddLane st input) (extractAddByte st input) ⟨[], 0, offset, offset⟩ length).out

/-- The functions that access the bytes of a state. -/
def access (v : Variant) : Access Bytes where
  init := (X64Asm.init v (List.replicate 200 0)).getD []
  addByte := addByteMacro
  addBytes := X64Asm.addBytes v
  overwriteBytes := X64Asm.overwriteBytes
  overwriteWithZeroes := X64Asm.overwriteWithZeroes
  extractBytes := X64Asm.extractBytes
  extractAndAddBytes := X64Asm.extractAndAddBytes

/-! ### The fast loop -/

/-- The words of the data that a group of instructions of `KeccakF1600_FastLoop_Absorb_Loop21` adds to the state: `movq _xx(arg3), r` for all of
them, and then `xorq r, _xx(arg1)`.  The order of the source is the same up to independent instructions. -/
def addWords (data : Bytes) (arg3 : Nat) : List Nat → Bytes → Option Bytes
  | [], st => some st
  | l :: ls, st => do
    let r ← rd64 data (arg3 + l * 8)
    let st ← xorMem st (l * 8) r
    addWords data arg3 ls st

/-- `KeccakF1600_FastLoop_Absorb_Loop21` (s:1115-1166): the state and the pointer to the data.  `arg4` is the number of lanes left, minus 21. -/
def loop21 (v : Variant) (junk : V) (data : Bytes) (trailingBits : Lane) : Nat → Bytes → Nat → Nat → Option (Bytes × Nat)
  | 0, _, _, _ => none
  | fuel + 1, st, arg3, arg4 => do
    let st ← addWords data arg3 [0, 1, 2, 3, 4, 5, 6, 7, 8, 9] st
    let st ← addWords data arg3 [10, 11, 12, 13, 14] st
    let st ← addWords data arg3 [15, 16, 17, 18, 19, 20] st
    let rT1e := trailingBits
    let st ← xorMem st (21 * 8) rT1e
    let arg3 := arg3 + 21 * 8
    let st ← permutation v lines24 junk st
    if arg4 < 21 then some (st, arg3) else loop21 v junk data trailingBits fuel st arg3 (sub64 arg4 21)

/-- `KeccakF1600_FastLoop_Absorb_VariableLaneCountLoop` (s:1175-1196). -/
def variableLoop (v : Variant) (junk : V) (laneCount : Nat) (data : Bytes) (trailingBits : Lane) : Nat → Bytes → Nat → Nat → Option (Bytes × Nat)
  | 0, _, _, _ => none
  | fuel + 1, st, arg3, arg4 => do
    let ⟨st, arg2, arg1⟩ ← addBytesP v st data arg3 0 (laneCount * 2 ^ 3)
    let arg3 := arg2
    let rT1a := trailingBits
    let st ← xorMem st arg1 rT1a
    let st ← permute24 v junk st
    if arg4 < laneCount then some (st, arg3) else variableLoop v junk laneCount data trailingBits fuel st arg3 (sub64 arg4 laneCount)

/-- `KeccakF1600_FastLoop_Absorb` (s:1106-1173), on data that starts at address 0 and ends with `data`: the state and the number of bytes
processed.  The argument `trailingBits` is an `unsigned char`, of which the whole register is used. -/
def fastLoop (v : Variant) (junk : V) (st : Bytes) (laneCount : Nat) (data : Bytes) (trailingBits : Lane) : Option (Bytes × Nat) :=
  let arg4 := data.length / 2 ^ 3
  if arg4 < laneCount then some (st, 0)
  else
    let arg4 := sub64 arg4 laneCount
    if laneCount ≠ 21 then variableLoop v junk laneCount data trailingBits (data.length + 1) st 0 arg4
    else loop21 v junk data trailingBits (data.length + 1) st 0 arg4

end X64Asm
