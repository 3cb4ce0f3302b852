import Verif.Model.Farfalle

/-!
# Modes on top of Kravatte and Xoofff (`KravatteModes.c`, `XoofffModes.c`)

Apart from the names, the two files contain the same functions; `C : Cfg` says which one is meant.  Output buffers are
modelled by the bytes written to them; they do not overlap the input buffers (as KravatteModes.h and XoofffModes.h ask).
-/

namespace Farfalle

variable (C : Cfg)

/-- One of the three loops of `memxoris`, with `step` bytes per iteration (KravatteModes.c:57-71, 73-76; Xoofff.c:293-307,
310-313): the bytes written, and `target`, `source` and `byteLen` after the loop.  The last loop (`byteLen-- != 0`) is the case
`step = 1`. -/
def xorLoop (step : Nat) : Nat → Bytes → Bytes → Nat → Option (Bytes × Bytes × Bytes × Nat)
  | 0, _, _, _ => none
  | fuel + 1, target, source, byteLen =>
    if byteLen ≥ step then do
      let t ← SnP.readBuf target step
      let s ← SnP.readBuf source step
      let (o, target, source, byteLen) ← xorLoop step fuel (target.drop step) (source.drop step) (byteLen - step)
      some (Bytes.xor t s ++ o, target, source, byteLen)
    else some ([], target, source, byteLen)

/-- `memxoris` (KravatteModes.c:52-85), `Xoofff_AddIs` (Xoofff.c:288-321): the target buffer afterwards. -/
def addIs (target source : Bytes) (bitLen : Nat) : Option Bytes := do
  let (o1, t, s, n) ← xorLoop 32 (bitLen / 8 + 1) target source (bitLen / 8)
  let (o2, t, s, n) ← xorLoop 8 (n + 1) t s n
  let (o3, t, s, _) ← xorLoop 1 (n + 1) t s n
  if bitLen % 8 ≠ 0 then do
    let a ← t.head?
    let b ← s.head?
    some (o1 ++ o2 ++ o3 ++ [(a ^^^ b) &&& BitVec.ofNat 8 (2 ^ (bitLen % 8) - 1)] ++ t.drop 1)
  else some (o1 ++ o2 ++ o3 ++ t)

/-! ## SANE -/

/-- `Kravatte_SANE_Instance` (KravatteModes.h:38-41), `Kravatte_SANSE_Instance` (KravatteModes.h:97-100), `XoofffSANE_Instance`
(XoofffModes.h:33-36), `XoofffSANSE_Instance` (XoofffModes.h:91-94). -/
structure Sess where
  kv : Inst
  e : Nat

/-- `Kravatte_SANE_TagLength` (KravatteModes.h:31), `XoofffSANE_TagLength` (XoofffModes.h:31). -/
def SANE_TagLength : Nat := 16

/-- `Kravatte_SANE_Initialize` (KravatteModes.c:129-138), `XoofffSANE_Initialize` (XoofffModes.c:256-265): return code, instance
and tag. -/
def saneInitialize (kp : Sess) (key : Bytes) (keyBitLen : Nat) (nonce : Bytes) (nonceBitLen : Nat) :
    Option (Nat × Sess × Bytes) := do
  let (c, kv) ← maskDerivation C kp.kv key keyBitLen
  if c ≠ 0 then some (1, ⟨kv, 0⟩, [])
  else do
    let (c, kv) ← compress C kv nonce nonceBitLen { init := true, last := true }
    if c ≠ 0 then some (1, ⟨kv, 0⟩, [])
    else do
      let (c, kv, tag) ← expand C kv (SANE_TagLength * 8) {}
      some (c, ⟨kv, 0⟩, tag)

/-- `Kravatte_SANE_AddToHistory` (KravatteModes.c:140-166), `XoofffSANE_AddToHistory` (XoofffModes.c:267-293). -/
def saneAddToHistory (kv : Inst) (e : Nat) (data : Bytes) (dataBitLen appendix : Nat) : Option (Nat × Inst) := do
  let (c, kv) ← compress C kv data (dataBitLen / 8 * 8) {}
  if c ≠ 0 then some (1, kv)
  else if dataBitLen % 8 = 0 then compress C kv [BitVec.ofNat 8 (appendix ||| e <<< 1)] 2 { last := true }
  else do
    let d ← data[dataBitLen / 8]?
    if dataBitLen % 8 ≤ 6 then
      compress C kv [BitVec.ofNat 8 (d.toNat ||| appendix <<< (dataBitLen % 8) ||| e <<< (dataBitLen % 8 + 1))]
        (dataBitLen % 8 + 2) { last := true }
    else do
      let (c, kv) ← compress C kv [BitVec.ofNat 8 (d.toNat ||| appendix <<< 7)] 8 {}
      if c ≠ 0 then some (1, kv)
      else compress C kv [BitVec.ofNat 8 e] 1 { last := true }

/-- Encryption or decryption in SANE: `Vatte` and `memxoris` (KravatteModes.c:173-178, 200-205; XoofffModes.c:299-304, 326-331):
return code, instance and output. -/
def saneCrypt (kv : Inst) (input : Bytes) (dataBitLen : Nat) : Option (Nat × Inst × Bytes) :=
  if dataBitLen ≠ 0 then do
    let (c, kv, o) ← expand C kv dataBitLen { last := true }
    if c ≠ 0 then some (1, kv, o)
    else do
      let o ← addIs o input dataBitLen
      some (0, kv, o)
  else some (0, kv, [])

/-- Associated data added to the history if needed (KravatteModes.c:179-183, 206-210; XoofffModes.c:305-309, 332-336). -/
def saneAddAD (kv : Inst) (e : Nat) (ad : Bytes) (adBitLen dataBitLen : Nat) : Option (Nat × Inst) :=
  if adBitLen ≠ 0 ∨ dataBitLen = 0 then saneAddToHistory C kv e ad adBitLen 0 else some (0, kv)

/-- Ciphertext added to the history if needed (KravatteModes.c:184-188, 211-215; XoofffModes.c:310-314, 337-341). -/
def saneAddCT (kv : Inst) (e : Nat) (ciphertext : Bytes) (dataBitLen : Nat) : Option (Nat × Inst) :=
  if dataBitLen ≠ 0 then saneAddToHistory C kv e ciphertext dataBitLen 1 else some (0, kv)

/-- `Kravatte_SANE_Wrap` (KravatteModes.c:169-193), `XoofffSANE_Wrap` (XoofffModes.c:295-319): return code, instance,
ciphertext and tag. -/
def saneWrap (kp : Sess) (plaintext : Bytes) (dataBitLen : Nat) (ad : Bytes) (adBitLen : Nat) :
    Option (Nat × Sess × Bytes × Bytes) := do
  let (c, kv, ct) ← saneCrypt C kp.kv plaintext dataBitLen
  if c ≠ 0 then some (1, ⟨kv, kp.e⟩, ct, [])
  else do
    let (c, kv) ← saneAddAD C kv kp.e ad adBitLen dataBitLen
    if c ≠ 0 then some (1, ⟨kv, kp.e⟩, ct, [])
    else do
      let (c, kv) ← saneAddCT C kv kp.e ct dataBitLen
      if c ≠ 0 then some (1, ⟨kv, kp.e⟩, ct, [])
      else do
        let (c, kv, tag) ← expand C kv (SANE_TagLength * 8) {}
        some (c, ⟨kv, kp.e ^^^ 1⟩, ct, tag)

/-- `Kravatte_SANE_Unwrap` (KravatteModes.c:195-226), `XoofffSANE_Unwrap` (XoofffModes.c:321-352): return code, instance and
plaintext. -/
def saneUnwrap (kp : Sess) (ciphertext : Bytes) (dataBitLen : Nat) (ad : Bytes) (adBitLen : Nat) (tag : Bytes) :
    Option (Nat × Sess × Bytes) := do
  let (c, kv, pt) ← saneCrypt C kp.kv ciphertext dataBitLen
  if c ≠ 0 then some (1, ⟨kv, kp.e⟩, pt)
  else do
    let (c, kv) ← saneAddAD C kv kp.e ad adBitLen dataBitLen
    if c ≠ 0 then some (1, ⟨kv, kp.e⟩, pt)
    else do
      let (c, kv) ← saneAddCT C kv kp.e ciphertext dataBitLen
      if c ≠ 0 then some (1, ⟨kv, kp.e⟩, pt)
      else do
        let (c, kv, tagPrime) ← expand C kv (SANE_TagLength * 8) {}
        if c ≠ 0 then some (1, ⟨kv, kp.e⟩, pt)
        else do
          let t ← SnP.readBuf tag SANE_TagLength
          if tagPrime ≠ t then do
            let pt ← SnP.overwriteBytes pt (Bytes.zeros ((dataBitLen + 7) % 2 ^ 64 / 8)) 0
            some (1, ⟨kv, kp.e ^^^ 1⟩, pt)
          else some (0, ⟨kv, kp.e ^^^ 1⟩, pt)

/-! ## SANSE -/

/-- `Kravatte_SANSE_TagLength` (KravatteModes.h:95), `XoofffSANSE_TagLength` (XoofffModes.h:89). -/
def SANSE_TagLength : Nat := 32

/-- `Kravatte_SANSE_Initialize` (KravatteModes.c:230-234), `XoofffSANSE_Initialize` (XoofffModes.c:389-393). -/
def sanseInitialize (kp : Sess) (key : Bytes) (keyBitLen : Nat) : Option (Nat × Sess) := do
  let (c, kv) ← maskDerivation C kp.kv key keyBitLen
  some (c, ⟨kv, 0⟩)

/-- `Kravatte_SANSE_AddToHistory` (KravatteModes.c:236-266), `XoofffSANSE_AddToHistory` (XoofffModes.c:356-386). -/
def sanseAddToHistory (kv : Inst) (e : Nat) (data : Bytes) (dataBitLen appendix appendixLen : Nat) : Option (Nat × Inst) := do
  let (c, kv) ← compress C kv data (dataBitLen / 8 * 8) {}
  if c ≠ 0 then some (1, kv)
  else if dataBitLen % 8 = 0 then
    compress C kv [BitVec.ofNat 8 (appendix ||| e <<< appendixLen)] (appendixLen + 1) { last := true }
  else do
    let d ← data[dataBitLen / 8]?
    let d := d.toNat &&& (2 ^ (dataBitLen % 8) - 1)
    if dataBitLen % 8 ≤ 8 - (appendixLen + 1) then
      compress C kv [BitVec.ofNat 8 (d ||| appendix <<< (dataBitLen % 8) ||| e <<< (dataBitLen % 8 + appendixLen))]
        (dataBitLen % 8 + (appendixLen + 1)) { last := true }
    else do
      let bitsLeft := 8 - dataBitLen % 8
      let (c, kv) ← compress C kv [BitVec.ofNat 8 (d ||| (appendix &&& (2 ^ bitsLeft - 1)) <<< (dataBitLen % 8))] 8 {}
      if c ≠ 0 then some (1, kv)
      else
        compress C kv [BitVec.ofNat 8 (appendix >>> bitsLeft ||| e <<< (appendixLen - bitsLeft))]
          (appendixLen - bitsLeft + 1) { last := true }

/-- Associated data added to the history if needed (KravatteModes.c:272-277, 317-322; XoofffModes.c:399-404, 444-449). -/
def sanseAddAD (kv : Inst) (e : Nat) (ad : Bytes) (adBitLen dataBitLen : Nat) : Option (Nat × Inst) :=
  if adBitLen ≠ 0 ∨ dataBitLen = 0 then sanseAddToHistory C kv e ad adBitLen 0 1 else some (0, kv)

/-- The body of `if (dataBitLen != 0)` in `Kravatte_SANSE_Wrap` (KravatteModes.c:279-301) and `XoofffSANSE_Wrap`
(XoofffModes.c:406-428): return code, instance, ciphertext and tag. -/
def sanseWrapData (kv : Inst) (e : Nat) (plaintext : Bytes) (dataBitLen : Nat) : Option (Nat × Inst × Bytes × Bytes) := do
  let initialHistory := kv
  let (c, kv) ← sanseAddToHistory C kv e plaintext dataBitLen 2 2
  if c ≠ 0 then some (1, kv, [], [])
  else do
    let newHistory := kv
    let (c, kv, tag) ← expand C kv (SANSE_TagLength * 8) {}
    if c ≠ 0 then some (1, kv, [], tag)
    else do
      let (c, kv) ← sanseAddToHistory C initialHistory e tag (SANSE_TagLength * 8) 3 2
      if c ≠ 0 then some (1, kv, [], tag)
      else do
        let (c, kv, ct) ← expand C kv dataBitLen { last := true }
        if c ≠ 0 then some (1, kv, ct, tag)
        else do
          let ct ← addIs ct plaintext dataBitLen
          some (0, newHistory, ct, tag)

/-- `Kravatte_SANSE_Wrap` (KravatteModes.c:268-310), `XoofffSANSE_Wrap` (XoofffModes.c:395-437). -/
def sanseWrap (kp : Sess) (plaintext : Bytes) (dataBitLen : Nat) (ad : Bytes) (adBitLen : Nat) :
    Option (Nat × Sess × Bytes × Bytes) := do
  let (c, kv) ← sanseAddAD C kp.kv kp.e ad adBitLen dataBitLen
  if c ≠ 0 then some (1, ⟨kv, kp.e⟩, [], [])
  else if dataBitLen ≠ 0 then do
    let (c, kv, ct, tag) ← sanseWrapData C kv kp.e plaintext dataBitLen
    if c ≠ 0 then some (1, ⟨kv, kp.e⟩, ct, tag)
    else some (0, ⟨kv, kp.e ^^^ 1⟩, ct, tag)
  else do
    let (c, kv, tag) ← expand C kv (SANSE_TagLength * 8) {}
    if c ≠ 0 then some (1, ⟨kv, kp.e⟩, [], tag)
    else some (0, ⟨kv, kp.e ^^^ 1⟩, [], tag)

/-- The body of `if (dataBitLen != 0)` in `Kravatte_SANSE_Unwrap` (KravatteModes.c:325-339) and `XoofffSANSE_Unwrap`
(XoofffModes.c:452-466): return code, instance and plaintext. -/
def sanseUnwrapData (kv : Inst) (e : Nat) (ciphertext : Bytes) (dataBitLen : Nat) (tag : Bytes) : Option (Nat × Inst × Bytes) :=
  if dataBitLen ≠ 0 then do
    let initialHistory := kv
    let (c, kv) ← sanseAddToHistory C kv e tag (SANSE_TagLength * 8) 3 2
    if c ≠ 0 then some (1, kv, [])
    else do
      let (c, kv, pt) ← expand C kv dataBitLen { last := true }
      if c ≠ 0 then some (1, kv, pt)
      else do
        let pt ← addIs pt ciphertext dataBitLen
        let (c, kv) ← sanseAddToHistory C initialHistory e pt dataBitLen 2 2
        if c ≠ 0 then some (1, kv, pt)
        else some (0, kv, pt)
  else some (0, kv, [])

/-- `Kravatte_SANSE_Unwrap` (KravatteModes.c:312-356), `XoofffSANSE_Unwrap` (XoofffModes.c:439-483). -/
def sanseUnwrap (kp : Sess) (ciphertext : Bytes) (dataBitLen : Nat) (ad : Bytes) (adBitLen : Nat) (tag : Bytes) :
    Option (Nat × Sess × Bytes) := do
  let (c, kv) ← sanseAddAD C kp.kv kp.e ad adBitLen dataBitLen
  if c ≠ 0 then some (1, ⟨kv, kp.e⟩, [])
  else do
    let (c, kv, pt) ← sanseUnwrapData C kv kp.e ciphertext dataBitLen tag
    if c ≠ 0 then some (1, ⟨kv, kp.e⟩, pt)
    else do
      let (c, kv, tagPrime) ← expand C kv (SANSE_TagLength * 8) {}
      if c ≠ 0 then some (1, ⟨kv, kp.e⟩, pt)
      else do
        let t ← SnP.readBuf tag SANSE_TagLength
        if tagPrime ≠ t then do
          let pt ← SnP.overwriteBytes pt (Bytes.zeros ((dataBitLen + 7) % 2 ^ 64 / 8)) 0
          some (1, ⟨kv, kp.e ^^^ 1⟩, pt)
        else some (0, ⟨kv, kp.e ^^^ 1⟩, pt)

/-! ## WBC -/

/-- `Kravatte_WBC_l` (KravatteModes.h:150), `XoofffWBC_l` (XoofffModes.h:144). -/
def WBC_l : Nat := 8

/-- `1 << x`, where `1` is an `int` of 32 bits: undefined if the result is not representable. -/
def intShl (x : Nat) : Option Nat := if x < 31 then some (2 ^ x) else none

/-- The loop of the split function (KravatteModes.c:369-370, XoofffModes.c:63-64). -/
def splitLoop (q : Nat) : Nat → Nat → Option Nat
  | 0, _ => none
  | fuel + 1, x => do
    let p ← intShl x
    if p < q then splitLoop q fuel (x + 1) else some x

/-- `Kravatte_WBC_Split` (KravatteModes.c:360-375), `XoofffWBC_Split` (XoofffModes.c:54-69); `b` is the width in bits. -/
def wbcSplit (n : Nat) : Option Nat :=
  let b := C.width * 8
  if n ≤ 2 * b - (WBC_l + 2) then some (WBC_l * ((n + WBC_l) / (2 * WBC_l)))
  else do
    let q := (n + WBC_l + 2 + (b - 1)) % 2 ^ 64 / b
    let x ← splitLoop q 32 1
    let p ← intShl (x - 1)
    some (((q + 2 ^ 64 - p) % 2 ^ 64 * b + 2 ^ 64 - WBC_l) % 2 ^ 64)

/-- `(numberOfBitsInLastByte != 0) ? R[nR/8] : 0`, then masked and completed by a bit 1 (KravatteModes.c:417-424, 444-446, 469-471,
495-497; XoofffModes.c:111-118, 138-140, 163-165, 189-191). -/
def wbcLastByte (r : Bytes) (nR : Nat) : Option Byte :=
  if nR % 8 ≠ 0 then do
    let d ← r[nR / 8]?
    some (d &&& BitVec.ofNat 8 (2 ^ (nR % 8) - 1) ||| BitVec.ofNat 8 (2 ^ (nR % 8)))
  else some 1

/-- `Kra(kv, data, len, flags)` and then `Kravatte(kv, lastByte, lastLen, out, outLen, ..)`; return code, instance and output. -/
def wbcCall (kv : Inst) (data : Bytes) (len : Nat) (init : Bool) (lastByte : Byte) (lastLen outLen : Nat) (short : Bool) :
    Option (Nat × Inst × Bytes) := do
  let (c, kv) ← compress C kv data len { init := init }
  if c ≠ 0 then some (1, kv, [])
  else full C kv [lastByte] lastLen outLen { short := short }

/-- Restoring what was saved after the tweak: `memcpy` to `kRoll` and `xAccu` (KravatteModes.c:430-431, 491-492; XoofffModes.c:124-125,
185-186). -/
def wbcRestore (kv : Inst) (kRollAfterHkW hkW : Bytes) : Inst :=
  { kv with kRoll := Bytes.setAt kv.kRoll C.rollcOffset kRollAfterHkW, xAccu := Bytes.setAt kv.xAccu 0 hkW }

/-- The second round of `Kravatte_WBC_Encipher` (KravatteModes.c:409-427), `XoofffWBC_Encipher` (XoofffModes.c:103-121), after the
tweak: return code, instance and `Lc`. -/
def wbcEncL (kv : Inst) (lp rp r0 : Bytes) (nL nR nR0 : Nat) : Option (Nat × Inst × Bytes) :=
  if nR0 = nR then do
    let b ← wbcLastByte r0 nR
    let (c, kv, lc) ← wbcCall C kv r0 (nR0 - nR % 8) false b (nR % 8 + 1) nL false
    if c ≠ 0 then some (1, kv, lc)
    else do
      let lc ← addIs lc lp nL
      some (0, kv, lc)
  else do
    let (c, kv) ← compress C kv r0 nR0 {}
    if c ≠ 0 then some (1, kv, [])
    else do
      let b ← wbcLastByte rp nR
      let (c, kv, lc) ← wbcCall C kv (rp.drop (nR0 / 8)) (nR - nR0 - nR % 8) false b (nR % 8 + 1) nL false
      if c ≠ 0 then some (1, kv, lc)
      else do
        let lc ← addIs lc lp nL
        some (0, kv, lc)

/-- `memxoris(T, S, n0)` and `memxoris(T + n0 / 8, U + n0 / 8, n - n0)` (KravatteModes.c:437-438, 500-501; XoofffModes.c:131-132,
194-195). -/
def addIs2 (t s u : Bytes) (n0 n : Nat) : Option Bytes := do
  let t ← addIs t s n0
  let t2 ← addIs (t.drop (n0 / 8)) (u.drop (n0 / 8)) (n - n0)
  some (t.take (n0 / 8) ++ t2)

/-- `Kravatte_WBC_Encipher` (KravatteModes.c:382-450), `XoofffWBC_Encipher` (XoofffModes.c:76-144): return code, instance and
ciphertext. -/
def wbcEncipher (kv : Inst) (plaintext : Bytes) (dataBitLen : Nat) (w : Bytes) (wBitLen : Nat) : Option (Nat × Inst × Bytes) := do
  let nL ← wbcSplit C dataBitLen
  let nR := (dataBitLen + 2 ^ 64 - nL) % 2 ^ 64
  let nL0 := min (C.width * 8) nL
  let nR0 := min (C.width * 8) nR
  let lp := plaintext
  let rp := plaintext.drop (nL / 8)
  let (c, kv, r0) ← wbcCall C kv lp nL true 0 1 nR0 true
  if c ≠ 0 then some (1, kv, [])
  else do
    let r0 ← addIs r0 rp nR0
    let (c, kv) ← compress C kv w wBitLen { init := true, last := true }
    if c ≠ 0 then some (1, kv, [])
    else do
      let hkW := kv.xAccu
      let kRollAfterHkW := Bytes.slice kv.kRoll C.rollcOffset C.rollcSize
      let (c, kv, lc) ← wbcEncL C kv lp rp r0 nL nR nR0
      if c ≠ 0 then some (1, kv, lc)
      else do
        let (c, kv, rc) ← wbcCall C (wbcRestore C kv kRollAfterHkW hkW) lc nL false 0 1 nR false
        if c ≠ 0 then some (1, kv, lc ++ rc)
        else do
          let rc ← addIs2 rc r0 rp nR0 nR
          let b ← wbcLastByte rc nR
          let (c, kv, r0) ← wbcCall C kv rc (nR - nR % 8) true b (nR % 8 + 1) nL0 true
          if c ≠ 0 then some (1, kv, lc ++ rc)
          else do
            let lc ← addIs lc r0 nL0
            some (0, kv, lc ++ rc)

/-- `Kravatte_WBC_Decipher` (KravatteModes.c:452-512), `XoofffWBC_Decipher` (XoofffModes.c:146-206): return code, instance and
plaintext. -/
def wbcDecipher (kv : Inst) (ciphertext : Bytes) (dataBitLen : Nat) (w : Bytes) (wBitLen : Nat) : Option (Nat × Inst × Bytes) := do
  let nL ← wbcSplit C dataBitLen
  let nR := (dataBitLen + 2 ^ 64 - nL) % 2 ^ 64
  let nL0 := min (C.width * 8) nL
  let nR0 := min (C.width * 8) nR
  let lc := ciphertext
  let rc := ciphertext.drop (nL / 8)
  let b ← wbcLastByte rc nR
  let (c, kv, l0) ← wbcCall C kv rc (nR - nR % 8) true b (nR % 8 + 1) nL0 true
  if c ≠ 0 then some (1, kv, [])
  else do
    let l0 ← addIs l0 lc nL0
    let (c, kv) ← compress C kv w wBitLen { init := true, last := true }
    if c ≠ 0 then some (1, kv, [])
    else do
      let hkW := kv.xAccu
      let kRollAfterHkW := Bytes.slice kv.kRoll C.rollcOffset C.rollcSize
      let (c, kv) ← compress C kv l0 nL0 {}
      if c ≠ 0 then some (1, kv, [])
      else do
        let (c, kv, rp) ← wbcCall C kv (lc.drop (nL0 / 8)) (nL - nL0) false 0 1 nR false
        if c ≠ 0 then some (1, kv, rp)
        else do
          let rp ← addIs rp rc nR
          let b ← wbcLastByte rp nR
          let (c, kv, lp) ← wbcCall C (wbcRestore C kv kRollAfterHkW hkW) rp (nR - nR % 8) false b (nR % 8 + 1) nL false
          if c ≠ 0 then some (1, kv, lp ++ rp)
          else do
            let lp ← addIs2 lp l0 lc nL0 nL
            let (c, kv, l0) ← wbcCall C kv lp nL true 0 1 nR0 true
            if c ≠ 0 then some (1, kv, lp ++ rp)
            else do
              let rp ← addIs rp l0 nR0
              some (0, kv, lp ++ rp)

/-! ## WBC-AE -/

/-- `Kravatte_WBCAE_t` (KravatteModes.h:199), `XoofffWBCAE_t` (XoofffModes.h:193). -/
def WBCAE_t : Nat := 128

/-- `Kravatte_WBCAE_Encipher` (KravatteModes.c:514-530), `XoofffWBCAE_Encipher` (XoofffModes.c:208-224): return code, instance,
ciphertext, and the plaintext buffer, which is modified; it must have room for the zeros. -/
def wbcaeEncipher (kv : Inst) (plaintext : Bytes) (dataBitLen : Nat) (ad : Bytes) (adBitLen : Nat) :
    Option (Nat × Inst × Bytes × Bytes) :=
  let n := dataBitLen / 8
  if dataBitLen % 8 ≠ 0 then do
    let d ← plaintext[n]?
    let plaintext := Bytes.setAt plaintext n [d &&& BitVec.ofNat 8 (2 ^ (dataBitLen % 8) - 1)]
    let plaintext ← SnP.overwriteBytes plaintext (Bytes.zeros (WBCAE_t / 8)) (n + 1)
    let (c, kv, ct) ← wbcEncipher C kv plaintext ((dataBitLen + WBCAE_t) % 2 ^ 64) ad adBitLen
    some (c, kv, ct, plaintext)
  else do
    let plaintext ← SnP.overwriteBytes plaintext (Bytes.zeros (WBCAE_t / 8)) n
    let (c, kv, ct) ← wbcEncipher C kv plaintext ((dataBitLen + WBCAE_t) % 2 ^ 64) ad adBitLen
    some (c, kv, ct, plaintext)

/-- The end of `Kravatte_WBCAE_Decipher` (KravatteModes.c:547-551), `XoofffWBCAE_Decipher` (XoofffModes.c:241-245): the comparison of
16 bytes with zero; return code and plaintext buffer. -/
def wbcaeCompare (pt : Bytes) (dataBitLen : Nat) : Option (Nat × Bytes) := do
  let t ← SnP.readBuf (pt.drop ((dataBitLen + 7) % 2 ^ 64 / 8)) (WBCAE_t / 8)
  if t ≠ Bytes.zeros (WBCAE_t / 8) then do
    let pt ← SnP.overwriteBytes pt (Bytes.zeros ((dataBitLen + WBCAE_t + 7) % 2 ^ 64 / 8)) 0
    some (1, pt)
  else some (0, pt)

/-- The checks in `Kravatte_WBCAE_Decipher` (KravatteModes.c:541-551), `XoofffWBCAE_Decipher` (XoofffModes.c:235-245): return code and
plaintext buffer. -/
def wbcaeCheck (pt : Bytes) (dataBitLen : Nat) : Option (Nat × Bytes) :=
  if dataBitLen % 8 ≠ 0 then do
    let d ← pt[dataBitLen / 8]?
    if d &&& ~~~ BitVec.ofNat 8 (2 ^ (dataBitLen % 8) - 1) ≠ 0 then do
      let pt ← SnP.overwriteBytes pt (Bytes.zeros ((dataBitLen + WBCAE_t + 7) % 2 ^ 64 / 8)) 0
      some (1, pt)
    else wbcaeCompare pt dataBitLen
  else wbcaeCompare pt dataBitLen

/-- `Kravatte_WBCAE_Decipher` (KravatteModes.c:534-552), `XoofffWBCAE_Decipher` (XoofffModes.c:228-246): return code, instance and
plaintext buffer. -/
def wbcaeDecipher (kv : Inst) (ciphertext : Bytes) (dataBitLen : Nat) (ad : Bytes) (adBitLen : Nat) : Option (Nat × Inst × Bytes) := do
  let (c, kv, pt) ← wbcDecipher C kv ciphertext ((dataBitLen + WBCAE_t) % 2 ^ 64) ad adBitLen
  if c ≠ 0 then some (1, kv, pt)
  else do
    let (c, pt) ← wbcaeCheck pt dataBitLen
    some (c, kv, pt)

end Farfalle
