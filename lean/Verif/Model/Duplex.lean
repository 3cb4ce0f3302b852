import Verif.Model.SnP

/-!
# The duplex construction and SpongePRG

Models `lib/high/Keccak/KeccakDuplex.inc` and `lib/high/Keccak/PRG/KeccakPRG.inc`.  `unsigned int` values are
natural numbers, reduced modulo 2^32 wherever the code computes one; an input buffer is the list of its
bytes, and its length is the length argument; output buffers are the list of bytes written.  The debugging code
under `KeccakReference` is dropped.
-/

/-- `XKCP_DeclareDuplexStructure` (KeccakDuplex.h:27-33). -/
structure DuplexInst where
  state : Bytes
  /-- in bits -/
  rate : Nat
  byteInputIndex : Nat
  byteOutputIndex : Nat
deriving Repr, DecidableEq

namespace Duplex

variable (P : SnP)

/-- Reduction to `unsigned int`. -/
def u32 (x : Nat) : Nat := x % 2 ^ 32

/-- `a - b` in `unsigned int`, for `a`, `b` below 2^32. -/
def sub32 (a b : Nat) : Nat := if b ≤ a then a - b else a + 2 ^ 32 - b

/-- `rho_max = rate - 2` (KeccakDuplex.inc:55, 103, 117, 130, 144). -/
def rhoMax (i : DuplexInst) : Nat := sub32 i.rate 2

/-- `(rate+7)/8` (KeccakDuplex.inc:49, 68, 159, 173). -/
def rateBytes (i : DuplexInst) : Nat := u32 (i.rate + 7) / 8

/-- `DuplexInitialize` (KeccakDuplex.inc:39-51). -/
def duplexInit (mem : DuplexInst) (rate capacity : BitVec 32) : Nat × DuplexInst :=
  if rate + capacity ≠ BitVec.ofNat 32 (P.width * 8) then (1, mem)
  else if rate ≤ 2 ∨ BitVec.ofNat 32 (P.width * 8) < rate then (1, mem)
  else
    (0, { state := P.init, rate := rate.toNat, byteInputIndex := 0, byteOutputIndex := u32 (rate.toNat + 7) / 8 })

/-- The argument checks of `Duplexing` (KeccakDuplex.inc:57-69): must it return 1? -/
def duplexingBad (i : DuplexInst) (sigmaBeginByteLen ZByteLen : Nat) (delimitedSigmaEnd : Byte) : Bool :=
  delimitedSigmaEnd = 0 ||
  sigmaBeginByteLen > rhoMax i / 8 ||
  u32 (u32 (i.byteInputIndex + sigmaBeginByteLen) * 8) > rhoMax i ||
  (sub32 (rhoMax i) (u32 (sigmaBeginByteLen * 8)) < 7 &&
    delimitedSigmaEnd.toNat ≥ 2 ^ (sub32 (rhoMax i) (u32 (sigmaBeginByteLen * 8)) + 1)) ||
  ZByteLen > rateBytes i

/-- `buffer[len-1] &= (1 << (rate % 8)) - 1` (KeccakDuplex.inc:91-92, 165-166, 179-180), with `len-1` computed
in `unsigned int`. -/
def maskAt (out : Bytes) (len rate : Nat) : Option Bytes :=
  match out[sub32 len 1]? with
  | none => none
  | some b => some (out.set (sub32 len 1) (b &&& (BitVec.ofNat 8 (2 ^ (rate % 8)) - 1)))

/-- `Duplexing` (KeccakDuplex.inc:53-99): return code, instance and the bytes written to `Z`. -/
def duplexing (i : DuplexInst) (sigmaBegin : Bytes) (ZByteLen : Nat) (delimitedSigmaEnd : Byte) :
    Option (Nat × DuplexInst × Bytes) :=
  if duplexingBad i sigmaBegin.length ZByteLen delimitedSigmaEnd then some (1, i, [])
  else do
    let s ← SnP.addBytes i.state sigmaBegin i.byteInputIndex
    let s ← SnP.addByte s delimitedSigmaEnd (u32 (i.byteInputIndex + sigmaBegin.length))
    let s ← SnP.addByte s (1#8 <<< (sub32 i.rate 1 % 8)) (sub32 i.rate 1 / 8)
    let s := P.permute s
    let Z ← SnP.extractBytes s 0 ZByteLen
    let Z ← if u32 (ZByteLen * 8) > i.rate then maskAt Z ZByteLen i.rate else some Z
    some (0, { i with state := s, byteInputIndex := 0, byteOutputIndex := ZByteLen }, Z)

/-- The checks of the functions that queue input (KeccakDuplex.inc:105-108, 119-122, 132-135). -/
def feedBad (i : DuplexInst) (inputByteLen : Nat) : Bool :=
  inputByteLen > rhoMax i / 8 || u32 (u32 (i.byteInputIndex + inputByteLen) * 8) > rhoMax i

/-- `DuplexingFeedPartialInput` (KeccakDuplex.inc:101-113). -/
def feedPartialInput (i : DuplexInst) (input : Bytes) : Option (Nat × DuplexInst) :=
  if feedBad i input.length then some (1, i)
  else do
    let s ← SnP.addBytes i.state input i.byteInputIndex
    some (0, { i with state := s, byteInputIndex := u32 (i.byteInputIndex + input.length) })

/-- `DuplexingFeedZeroes` (KeccakDuplex.inc:115-126). -/
def feedZeroes (i : DuplexInst) (inputByteLen : Nat) : Nat × DuplexInst :=
  if feedBad i inputByteLen then (1, i)
  else (0, { i with byteInputIndex := u32 (i.byteInputIndex + inputByteLen) })

/-- `DuplexingOverwritePartialInput` (KeccakDuplex.inc:128-140). -/
def overwritePartialInput (i : DuplexInst) (input : Bytes) : Option (Nat × DuplexInst) :=
  if feedBad i input.length then some (1, i)
  else do
    let s ← SnP.overwriteBytes i.state input i.byteInputIndex
    some (0, { i with state := s, byteInputIndex := u32 (i.byteInputIndex + input.length) })

/-- `DuplexingOverwriteWithZeroes` (KeccakDuplex.inc:142-155). -/
def overwriteWithZeroes (i : DuplexInst) (inputByteLen : Nat) : Option (Nat × DuplexInst) :=
  if inputByteLen > rhoMax i / 8 then some (1, i)
  else if i.byteInputIndex ≠ 0 ∨ u32 (inputByteLen * 8) > rhoMax i then some (1, i)
  else do
    let s ← SnP.overwriteWithZeroes i.state inputByteLen
    some (0, { i with state := s, byteInputIndex := inputByteLen })

/-- The end of the two further-output functions (KeccakDuplex.inc:163-168, 177-182): `out` is what has been
written to the output buffer. -/
def furtherEnd (i : DuplexInst) (out : Bytes) (outputByteLen : Nat) : Option (Nat × DuplexInst × Bytes) := do
  let i := { i with byteOutputIndex := u32 (i.byteOutputIndex + outputByteLen) }
  let out ← if u32 (i.byteOutputIndex * 8) > i.rate then maskAt out outputByteLen i.rate else some out
  some (0, i, out)

/-- `DuplexingGetFurtherOutput` (KeccakDuplex.inc:157-169). -/
def getFurtherOutput (i : DuplexInst) (outputByteLen : Nat) : Option (Nat × DuplexInst × Bytes) :=
  if outputByteLen > sub32 (rateBytes i) i.byteOutputIndex then some (1, i, [])
  else do
    let out ← SnP.extractBytes i.state i.byteOutputIndex outputByteLen
    furtherEnd i out outputByteLen

/-- `DuplexingGetFurtherOutputAndAdd` (KeccakDuplex.inc:171-183); `outputByteLen` is the length of `input`. -/
def getFurtherOutputAndAdd (i : DuplexInst) (input : Bytes) : Option (Nat × DuplexInst × Bytes) :=
  if input.length > sub32 (rateBytes i) i.byteOutputIndex then some (1, i, [])
  else do
    let out ← SnP.extractAndAddBytes i.state input i.byteOutputIndex
    furtherEnd i out input.length

end Duplex

/-! ## SpongePRG -/

namespace SpongePRG
open Duplex

variable (P : SnP)

/-- `rhoInBytes = (rate-2)/8` (KeccakPRG.inc:45, 54, 72, 97). -/
def rhoInBytes (i : DuplexInst) : Nat := sub32 i.rate 2 / 8

/-- `SpongePRG_Initialize` (KeccakPRG.inc:36-50). -/
def prgInit (mem : DuplexInst) (capacity : BitVec 32) : Nat × DuplexInst :=
  let w := BitVec.ofNat 32 (P.width * 8)
  if w - 10 < capacity then (1, mem)
  else
    let rate := w - capacity
    let rho := (rate - 2).toNat / 8
    if rho = 0 ∨ rho ≥ P.width then (1, mem) else duplexInit P mem rate capacity

/-- The `while` loop of `SpongePRG_Feed` (KeccakPRG.inc:57-63): `error` is the variable `error`; returns it
together with the instance and the remaining input.  The bitwise or of two return codes is 0 only if both
are. -/
def feedLoop (rho : Nat) : Nat → DuplexInst → Bytes → Option (Nat × DuplexInst × Bytes)
  | 0, _, _ => none
  | fuel + 1, i, input =>
    if input.length ≥ sub32 rho i.byteInputIndex then do
      let localSize := sub32 rho i.byteInputIndex
      let piece ← SnP.readBuf input localSize
      let (e1, i) ← feedPartialInput i piece
      let (e2, i, _) ← duplexing P i [] 0 0x01
      if e1 ||| e2 ≠ 0 then some (e1 ||| e2, i, input.drop localSize)
      else feedLoop rho fuel i (input.drop localSize)
    else some (0, i, input)

/-- `SpongePRG_Feed` (KeccakPRG.inc:52-68). -/
def feed (i : DuplexInst) (input : Bytes) : Option (Nat × DuplexInst) := do
  let rho := rhoInBytes i
  let (e, i, input) ← feedLoop P rho (input.length + 2) i input
  if e ≠ 0 then some (e, { i with byteOutputIndex := rho })
  else do
    let (e, i) ← feedPartialInput i input
    some (e, { i with byteOutputIndex := rho })

/-- The `while` loop of `SpongePRG_Fetch` (KeccakPRG.inc:83-91): returns the error, the instance and the bytes
written. -/
def fetchLoop (rho : Nat) : Nat → DuplexInst → Nat → Option (Nat × DuplexInst × Bytes)
  | 0, _, _ => none
  | fuel + 1, i, outputByteLen =>
    if outputByteLen > 0 then do
      let (e, i, _) ← duplexing P i [] 0 0x01
      if e ≠ 0 then some (e, i, [])
      else do
        let localSize := if rho ≤ outputByteLen then rho else outputByteLen
        let (e, i, out) ← getFurtherOutput i localSize
        if e ≠ 0 then some (e, i, out)
        else do
          let (e, i, out') ← fetchLoop rho fuel i (outputByteLen - localSize)
          some (e, i, out ++ out')
    else some (0, i, [])

/-- `SpongePRG_Fetch` (KeccakPRG.inc:70-93). -/
def fetch (i : DuplexInst) (outputByteLen : Nat) : Option (Nat × DuplexInst × Bytes) :=
  let rho := rhoInBytes i
  if i.byteOutputIndex < rho then do
    let localSize := sub32 rho i.byteOutputIndex
    let localSize := if localSize ≤ outputByteLen then localSize else outputByteLen
    let (e, i, out) ← getFurtherOutput i localSize
    if e ≠ 0 then some (e, i, out)
    else do
      let (e, i, out') ← fetchLoop P rho (outputByteLen - localSize + 1) i (outputByteLen - localSize)
      some (e, i, out ++ out')
  else fetchLoop P rho (outputByteLen + 1) i outputByteLen

/-- `SpongePRG_Forget` (KeccakPRG.inc:95-112). -/
def forget (i : DuplexInst) : Option (Nat × DuplexInst) :=
  let rho := rhoInBytes i
  let capacity := sub32 (P.width * 8) i.rate
  if u32 (rho * 8) < capacity then some (1, i)
  else do
    let (e, i, _) ← duplexing P i [] 0 0x01
    if e ≠ 0 then some (e, { i with byteOutputIndex := rho })
    else do
      let (e, i) ← overwriteWithZeroes i rho
      if e ≠ 0 then some (e, { i with byteOutputIndex := rho })
      else do
        let (e, i, _) ← duplexing P i [] 0 0x01
        some (e, { i with byteOutputIndex := rho })

end SpongePRG
