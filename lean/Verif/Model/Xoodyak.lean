import Verif.Model.SnP

/-!
# Xoodyak

Models `lib/high/Xoodyak/Cyclist.inc` as included by `Xoodyak.c:45-55`, with the parameters of
`Xoodyak-parameters.h:20-24`, and `lib/low/Xoodoo/plain/Xoodyak-full-blocks.c`.

* `f` is `SnP_Permute`, that is `Xoodoo_Permute_12rounds`; the state is seen as 48 bytes (C40 and C42 are about the
  functions behind this view).
* `full` says whether `CyclistFullBlocks_supported` is defined (it is by plain/Xoodoo-SnP.h:52, not by ref/Xoodoo-SnP.h).
* Pairs of a pointer and a length are a list and a number; reading past the end of a buffer, or outside of the state,
  gives `none`.  What is written to an output buffer is returned as a list.  Buffers do not overlap.
* Assertions compiled with `DEBUG` and the code compiled with `OUTPUT` (a trace) are not modelled.
-/

namespace Xoodyak

/-- `Xoodyak_f_bPrime` (Xoodyak-parameters.h:20). -/
def f_bPrime : Nat := 48
/-- `Xoodyak_Rhash` (Xoodyak-parameters.h:21). -/
def Rhash : Nat := 16
/-- `Xoodyak_Rkin` (Xoodyak-parameters.h:22). -/
def Rkin : Nat := 44
/-- `Xoodyak_Rkout` (Xoodyak-parameters.h:23). -/
def Rkout : Nat := 24
/-- `Xoodyak_lRatchet` (Xoodyak-parameters.h:24). -/
def lRatchet : Nat := 16

/-- `Cyclist_ModeHash` (Cyclist.h:23). -/
def ModeHash : Nat := 1
/-- `Cyclist_ModeKeyed` (Cyclist.h:24). -/
def ModeKeyed : Nat := 2
/-- `Cyclist_PhaseDown` (Cyclist.h:26). -/
def PhaseDown : Nat := 1
/-- `Cyclist_PhaseUp` (Cyclist.h:27). -/
def PhaseUp : Nat := 2

/-- `Xoodyak_Instance` (Cyclist.h:46-53). -/
structure Inst where
  state : Bytes
  phase : Nat
  mode : Nat
  Rabsorb : Nat
  Rsqueeze : Nat

/-- `Cyclist_Down` (Cyclist.inc:61-68). -/
def down (i : Inst) (Xi : Bytes) (XiLen : Nat) (Cd : Byte) : Option Inst := do
  let d ← SnP.readBuf Xi XiLen
  let s ← SnP.addBytes i.state d 0
  let s ← SnP.addByte s 0x01 XiLen
  let s ← SnP.addByte s (if i.mode = ModeHash then Cd &&& 0x01 else Cd) (f_bPrime - 1)
  some { i with state := s, phase := PhaseDown }

/-- `if (mode != Cyclist_ModeHash) SnP_AddByte(Cu)` in `Cyclist_Up` (Cyclist.inc:76-78). -/
def addCu (i : Inst) (Cu : Byte) : Option Bytes :=
  if i.mode ≠ ModeHash then SnP.addByte i.state Cu (f_bPrime - 1) else some i.state

/-- `Cyclist_Up` (Cyclist.inc:70-98). -/
def up (f : Bytes → Bytes) (i : Inst) (YiLen : Nat) (Cu : Byte) : Option (Inst × Bytes) := do
  let s ← addCu i Cu
  let s := f s
  let Yi ← SnP.extractBytes s 0 YiLen
  some ({ i with state := s, phase := PhaseUp }, Yi)

/-- The loop of `Xoodyak_AbsorbKeyedFullBlocks` (Xoodyak-full-blocks.c:34-47) with `r = Xoodyak_Rkin` and of
`Xoodyak_AbsorbHashFullBlocks` (49-62) with `r = Xoodyak_Rhash`: the state, the remaining data and their number
of bytes. -/
def absorbFullBlocks (f : Bytes → Bytes) (r : Nat) : Nat → Bytes → Bytes → Nat → Option (Bytes × Bytes × Nat)
  | 0, _, _, _ => none
  | fuel + 1, s, X, XLen => do
    let s := f s
    let d ← SnP.readBuf X r
    let s ← SnP.addBytes s d 0
    let s ← SnP.addByte s 0x01 r
    let X := X.drop r
    let XLen := XLen - r
    if XLen ≥ r then absorbFullBlocks f r fuel s X XLen else some (s, X, XLen)

/-- `Xoodyak_AbsorbKeyedFullBlocks` (Xoodyak-full-blocks.c:34-47): the state and the number of bytes processed. -/
def absorbKeyedFullBlocks (f : Bytes → Bytes) (s X : Bytes) (XLen : Nat) : Option (Bytes × Nat) := do
  let st ← absorbFullBlocks f Rkin (XLen + 1) s X XLen
  some (st.1, XLen - st.2.2)

/-- `Xoodyak_AbsorbHashFullBlocks` (Xoodyak-full-blocks.c:49-62). -/
def absorbHashFullBlocks (f : Bytes → Bytes) (s X : Bytes) (XLen : Nat) : Option (Bytes × Nat) := do
  let st ← absorbFullBlocks f Rhash (XLen + 1) s X XLen
  some (st.1, XLen - st.2.2)

/-- The loop of `Xoodyak_SqueezeKeyedFullBlocks` (Xoodyak-full-blocks.c:65-78) with `r = Xoodyak_Rkout` and of
`Xoodyak_SqueezeHashFullBlocks` (80-93) with `r = Xoodyak_Rhash`: the state, the bytes written and the number of bytes
still to be written.  With fewer than `r` bytes left the write would be past the end of the buffer. -/
def squeezeFullBlocks (f : Bytes → Bytes) (r : Nat) : Nat → Bytes → Nat → Option (Bytes × Bytes × Nat)
  | 0, _, _ => none
  | fuel + 1, s, YLen => do
    let s ← SnP.addByte s 0x01 0
    let s := f s
    let Y ← SnP.extractBytes s 0 r
    if YLen < r then none
    else if YLen - r ≥ r then do
      let st ← squeezeFullBlocks f r fuel s (YLen - r)
      some (st.1, Y ++ st.2.1, st.2.2)
    else some (s, Y, YLen - r)

/-- `Xoodyak_SqueezeKeyedFullBlocks` (Xoodyak-full-blocks.c:65-78): the state, the output and the number of bytes
processed. -/
def squeezeKeyedFullBlocks (f : Bytes → Bytes) (s : Bytes) (YLen : Nat) : Option (Bytes × Bytes × Nat) := do
  let st ← squeezeFullBlocks f Rkout (YLen + 1) s YLen
  some (st.1, st.2.1, YLen - st.2.2)

/-- `Xoodyak_SqueezeHashFullBlocks` (Xoodyak-full-blocks.c:80-93). -/
def squeezeHashFullBlocks (f : Bytes → Bytes) (s : Bytes) (YLen : Nat) : Option (Bytes × Bytes × Nat) := do
  let st ← squeezeFullBlocks f Rhash (YLen + 1) s YLen
  some (st.1, st.2.1, YLen - st.2.2)

/-- The loop of `Xoodyak_EncryptFullBlocks` (Xoodyak-full-blocks.c:95-110): the state, the output and the number of
bytes left. -/
def encryptLoop (f : Bytes → Bytes) : Nat → Bytes → Bytes → Nat → Option (Bytes × Bytes × Nat)
  | 0, _, _, _ => none
  | fuel + 1, s, I, IOLen => do
    let s := f s
    let d ← SnP.readBuf I Rkout
    let O ← SnP.extractAndAddBytes s d 0
    let s ← SnP.overwriteBytes s O 0
    let s ← SnP.addByte s 0x01 Rkout
    let I := I.drop Rkout
    let IOLen := IOLen - Rkout
    if IOLen ≥ Rkout then
      let st ← encryptLoop f fuel s I IOLen
      some (st.1, O ++ st.2.1, st.2.2)
    else some (s, O, IOLen)

/-- `Xoodyak_EncryptFullBlocks` (Xoodyak-full-blocks.c:95-110): the state, the output and the number of bytes
processed. -/
def encryptFullBlocks (f : Bytes → Bytes) (s I : Bytes) (IOLen : Nat) : Option (Bytes × Bytes × Nat) := do
  let st ← encryptLoop f (IOLen + 1) s I IOLen
  some (st.1, st.2.1, IOLen - st.2.2)

/-- The loop of `Xoodyak_DecryptFullBlocks` (Xoodyak-full-blocks.c:112-127). -/
def decryptLoop (f : Bytes → Bytes) : Nat → Bytes → Bytes → Nat → Option (Bytes × Bytes × Nat)
  | 0, _, _, _ => none
  | fuel + 1, s, I, IOLen => do
    let s := f s
    let d ← SnP.readBuf I Rkout
    let O ← SnP.extractAndAddBytes s d 0
    let s ← SnP.addBytes s O 0
    let s ← SnP.addByte s 0x01 Rkout
    let I := I.drop Rkout
    let IOLen := IOLen - Rkout
    if IOLen ≥ Rkout then
      let st ← decryptLoop f fuel s I IOLen
      some (st.1, O ++ st.2.1, st.2.2)
    else some (s, O, IOLen)

/-- `Xoodyak_DecryptFullBlocks` (Xoodyak-full-blocks.c:112-127). -/
def decryptFullBlocks (f : Bytes → Bytes) (s I : Bytes) (IOLen : Nat) : Option (Bytes × Bytes × Nat) := do
  let st ← decryptLoop f (IOLen + 1) s I IOLen
  some (st.1, st.2.1, IOLen - st.2.2)

/-- The full blocks in `Cyclist_AbsorbAny` (Cyclist.inc:113-124): the instance, the remaining data and their number of
bytes. -/
def absorbFast (f : Bytes → Bytes) (full : Bool) (i : Inst) (X : Bytes) (XLen r : Nat) :
    Option (Inst × Bytes × Nat) :=
  if full then
    if r = Rkin ∧ XLen ≥ Rkin then do
      let st ← absorbKeyedFullBlocks f i.state X XLen
      some ({ i with state := st.1 }, X.drop st.2, XLen - st.2)
    else if r = Rhash ∧ XLen ≥ Rhash then do
      let st ← absorbHashFullBlocks f i.state X XLen
      some ({ i with state := st.1 }, X.drop st.2, XLen - st.2)
    else some (i, X, XLen)
  else some (i, X, XLen)

/-- `if (phase != Cyclist_PhaseUp) Cyclist_Up(instance, NULL, 0, 0)` in `Cyclist_AbsorbAny` (Cyclist.inc:105-107). -/
def upIfDown (f : Bytes → Bytes) (i : Inst) : Option Inst :=
  if i.phase ≠ PhaseUp then do
    let st ← up f i 0 0
    some st.1
  else some i

/-- The loop of `Cyclist_AbsorbAny` (Cyclist.inc:104-125). -/
def absorbLoop (f : Bytes → Bytes) (full : Bool) (r : Nat) : Nat → Inst → Bytes → Nat → Byte → Option Inst
  | 0, _, _, _, _ => none
  | fuel + 1, i, X, XLen, Cd => do
    let i ← upIfDown f i
    let splitLen := min XLen r
    let i ← down i X splitLen Cd
    let st ← absorbFast f full i (X.drop splitLen) (XLen - splitLen) r
    if st.2.2 ≠ 0 then absorbLoop f full r fuel st.1 st.2.1 st.2.2 0 else some st.1

/-- `Cyclist_AbsorbAny` (Cyclist.inc:100-126). -/
def absorbAny (f : Bytes → Bytes) (full : Bool) (i : Inst) (X : Bytes) (r : Nat) (Cd : Byte) : Option Inst :=
  absorbLoop f full r (X.length + 1) i X X.length Cd

/-- `Cyclist_AbsorbKey` (Cyclist.inc:128-148).  `KID` is an array of `Xoodyak_Rkin` bytes: writing past its end gives
`none`. -/
def absorbKey (f : Bytes → Bytes) (full : Bool) (i : Inst) (K ID counter : Bytes) : Option Inst :=
  let i := { i with mode := ModeKeyed, Rabsorb := Rkin, Rsqueeze := Rkout }
  if K.length ≠ 0 then
    if K.length + ID.length + 1 ≤ Rkin then do
      let KID := K ++ ID ++ [BitVec.ofNat 8 ID.length]
      let i ← absorbAny f full i KID i.Rabsorb 0x02
      if counter.length ≠ 0 then absorbAny f full i counter 1 0x00 else some i
    else none
  else some i

/-- The loop of `Cyclist_SqueezeAny` (Cyclist.inc:158-179): the instance and the bytes written. -/
def squeezeLoop (f : Bytes → Bytes) (full : Bool) : Nat → Inst → Nat → Option (Inst × Bytes)
  | 0, _, _ => none
  | fuel + 1, i, YLen =>
    if YLen ≠ 0 then
      if full ∧ i.mode = ModeKeyed ∧ YLen ≥ Rkin then do
        let st ← squeezeKeyedFullBlocks f i.state YLen
        let st' ← squeezeLoop f full fuel { i with state := st.1 } (YLen - st.2.2)
        some (st'.1, st.2.1 ++ st'.2)
      else if full ∧ i.mode = ModeHash ∧ YLen ≥ Rhash then do
        let st ← squeezeHashFullBlocks f i.state YLen
        let st' ← squeezeLoop f full fuel { i with state := st.1 } (YLen - st.2.2)
        some (st'.1, st.2.1 ++ st'.2)
      else do
        let i ← down i [] 0 0
        let len := min YLen i.Rsqueeze
        let st ← up f i len 0
        let st' ← squeezeLoop f full fuel st.1 (YLen - len)
        some (st'.1, st.2 ++ st'.2)
    else some (i, [])

/-- `Cyclist_SqueezeAny` (Cyclist.inc:150-180). -/
def squeezeAny (f : Bytes → Bytes) (full : Bool) (i : Inst) (YLen : Nat) (Cu : Byte) : Option (Inst × Bytes) := do
  let len := min YLen i.Rsqueeze
  let st ← up f i len Cu
  let st' ← squeezeLoop f full (YLen + 1) st.1 (YLen - len)
  some (st'.1, st.2 ++ st'.2)

/-- The body of the loop of `Cyclist_Crypt` (Cyclist.inc:189-229): the instance, the bytes written and the number of
bytes processed. -/
def cryptBody (f : Bytes → Bytes) (full decrypt : Bool) (i : Inst) (I : Bytes) (IOLen : Nat) (Cu : Byte) :
    Option (Inst × Bytes × Nat) :=
  if decrypt then
    if full ∧ Cu = 0 ∧ IOLen ≥ Rkout then do
      let st ← decryptFullBlocks f i.state I IOLen
      some ({ i with state := st.1 }, st.2.1, st.2.2)
    else do
      let splitLen := min IOLen Rkout
      let st ← up f i 0 Cu
      let d ← SnP.readBuf I splitLen
      let O ← SnP.extractAndAddBytes st.1.state d 0
      let i ← down st.1 O splitLen 0x00
      some (i, O, splitLen)
  else
    if full ∧ Cu = 0 ∧ IOLen ≥ Rkout then do
      let st ← encryptFullBlocks f i.state I IOLen
      some ({ i with state := st.1 }, st.2.1, st.2.2)
    else do
      let splitLen := min IOLen Rkout
      let P ← SnP.readBuf I splitLen
      let st ← up f i 0 Cu
      let d ← SnP.readBuf I splitLen
      let O ← SnP.extractAndAddBytes st.1.state d 0
      let i ← down st.1 P splitLen 0x00
      some (i, O, splitLen)

/-- The loop of `Cyclist_Crypt` (Cyclist.inc:188-231): the instance and the bytes written. -/
def cryptLoop (f : Bytes → Bytes) (full decrypt : Bool) :
    Nat → Inst → Bytes → Nat → Byte → Option (Inst × Bytes)
  | 0, _, _, _, _ => none
  | fuel + 1, i, I, IOLen, Cu => do
    let st ← cryptBody f full decrypt i I IOLen Cu
    if IOLen - st.2.2 ≠ 0 then do
      let st' ← cryptLoop f full decrypt fuel st.1 (I.drop st.2.2) (IOLen - st.2.2) 0x00
      some (st'.1, st.2.1 ++ st'.2)
    else some (st.1, st.2.1)

/-- `Cyclist_Crypt` (Cyclist.inc:182-232). -/
def crypt (f : Bytes → Bytes) (full : Bool) (i : Inst) (I : Bytes) (decrypt : Bool) : Option (Inst × Bytes) :=
  cryptLoop f full decrypt (I.length + 1) i I I.length 0x80

/-- `Cyclist_Initialize` (Cyclist.inc:236-251). -/
def initialize' (f : Bytes → Bytes) (full : Bool) (K ID counter : Bytes) : Option Inst :=
  let i : Inst := ⟨Bytes.zeros f_bPrime, PhaseUp, ModeHash, Rhash, Rhash⟩
  if K.length ≠ 0 then absorbKey f full i K ID counter else some i

/-- `Cyclist_Absorb` (Cyclist.inc:253-256). -/
def absorb (f : Bytes → Bytes) (full : Bool) (i : Inst) (X : Bytes) : Option Inst :=
  absorbAny f full i X i.Rabsorb 0x03

/-- `Cyclist_Encrypt` (Cyclist.inc:258-264). -/
def encrypt (f : Bytes → Bytes) (full : Bool) (i : Inst) (P : Bytes) : Option (Inst × Bytes) :=
  crypt f full i P false

/-- `Cyclist_Decrypt` (Cyclist.inc:266-272). -/
def decrypt (f : Bytes → Bytes) (full : Bool) (i : Inst) (C : Bytes) : Option (Inst × Bytes) :=
  crypt f full i C true

/-- `Cyclist_Squeeze` (Cyclist.inc:274-277). -/
def squeeze (f : Bytes → Bytes) (full : Bool) (i : Inst) (YLen : Nat) : Option (Inst × Bytes) :=
  squeezeAny f full i YLen 0x40

/-- `Cyclist_SqueezeKey` (Cyclist.inc:279-285). -/
def squeezeKey (f : Bytes → Bytes) (full : Bool) (i : Inst) (KLen : Nat) : Option (Inst × Bytes) :=
  squeezeAny f full i KLen 0x20

/-- `Cyclist_Ratchet` (Cyclist.inc:287-297). -/
def ratchet (f : Bytes → Bytes) (full : Bool) (i : Inst) : Option Inst := do
  let st ← squeezeAny f full i lRatchet 0x10
  absorbAny f full st.1 st.2 st.1.Rabsorb 0x00

end Xoodyak
