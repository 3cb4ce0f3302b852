import Verif.Model.Relaned
import Verif.Model.Simd

/-!
# Keccak-p[1600] for XOP

Models `lib/low/KeccakP-1600/XOP/KeccakP-1600-XOP.c` ("xop" below): one state, whose lanes are held two by two in 128-bit registers, with
the loops of `lib/low/KeccakP-1600/common/KeccakP-1600-unrolling.macros` ("unr") and the byte access macros of
`lib/low/common/SnP-Relaned.h` (`Model/Relaned.lean`).

* The state is the array of 25 lanes in memory.  Alignment is not modelled.
* `Abae`, `Aba` ... of `declareABCDE`, only used within `copyFromState`, are local to it; so are `B`, `D`, `Cei` and `Cou`, assigned before
  they are used in every round, to the round.  `Cae`, `Cio` and `Cua` go from one round to the next.
* The configurations in the repository are `u6` and `ua`; the model takes every value of the unrolling macro.
* Reading `((uint64_t*)data)[i]` from a pointer to bytes is taken to be a read of eight bytes.
-/

namespace Xop

open KeccakP1600 (Lane Lanes put)
open KeccakP1600.Opt64 (Unrolling)
open Simd (Vec xor andnot roti unpacklo unpackhi)

/-! ### Intrinsics and macros -/

/-- The 32-bit word `w` of a 128-bit register. -/
def word32 (a : Vec 2) (w : Nat) : BitVec 32 := (a.at (w / 2)).extractLsb' (32 * (w % 2)) 32

/-- `_mm_shuffle_epi32`: word `w` of the result is the word of `a` selected by two bits of `c`. -/
def shuffleEpi32 (a : Vec 2) (c : Nat) : Vec 2 := fun l =>
  word32 a (c / 4 ^ (2 * l.val + 1) % 4) ++ word32 a (c / 4 ^ (2 * l.val) % 4)

/-- `_mm_blend_pd` on registers seen as 64-bit lanes: bit `l` of `c` selects lane `l` of `b`. -/
def blendPd (a b : Vec 2) (c : Nat) : Vec 2 := fun l => if c / 2 ^ l.val % 2 = 1 then b l else a l

/-- `_mm_rot_epi64` (XOP), for counts that are not negative as signed bytes: rotation of every lane to the left by the low byte of the
lane of `c`, modulo 64. -/
def rotEpi64 (a c : Vec 2) : Vec 2 := fun l => (a l).rotateLeft ((c l).toNat % 256 % 64)

/-- `SWAP64` (xop:59). -/
def swap64 (a : Vec 2) : Vec 2 := shuffleEpi32 a 0x4E

/-- `GET64LOLO` (xop:60). -/
def get64LOLO (a b : Vec 2) : Vec 2 := unpacklo a b

/-- `GET64HIHI` (xop:61). -/
def get64HIHI (a b : Vec 2) : Vec 2 := unpackhi a b

/-- `GET64LOHI` (xop:62). -/
def get64LOHI (a b : Vec 2) : Vec 2 := blendPd a b 2

/-- `GET64HILO` (xop:63). -/
def get64HILO (a b : Vec 2) : Vec 2 := swap64 (get64LOHI b a)

/-- `COPY64HI2LO` (xop:64). -/
def copy64HI2LO (a : Vec 2) : Vec 2 := shuffleEpi32 a 0xEE

/-- `ROL6464(a, r1, r2)` (xop:68-80): the constants `rot_r1_r2` hold `r1` in lane 0 and `r2` in lane 1. -/
def rol6464 (a : Vec 2) (r1 r2 : Nat) : Vec 2 := rotEpi64 a fun l => [BitVec.ofNat 64 r1, BitVec.ofNat 64 r2].getD l.val 0

/-- `CONST64` (xop:44): `_mm_loadl_epi64` clears the high lane. -/
def const64 (x : Lane) : Vec 2 := fun l => if l.val = 0 then x else 0

/-- `ZERO128` (xop:57). -/
def zero128 : Vec 2 := fun _ => 0

/-- `LOAD128(state[k])`, `LOAD128u(state[k])` (xop:52-53). -/
def load128 (L : Lanes) (k : Nat) : Vec 2 := fun l => L (Fin.ofNat 25 (k + l.val))

/-- `LOAD64(state[k])` (xop:43). -/
def load64 (L : Lanes) (k : Nat) : Vec 2 := fun l => if l.val = 0 then L (Fin.ofNat 25 k) else 0

/-- `STORE64(state[k], a)` (xop:45). -/
def store64 (L : Lanes) (k : Nat) (a : Vec 2) : Lanes := put L (Fin.ofNat 25 k) (a 0)

/-- `STORE128(state[k], a)` (xop:54). -/
def store128 (L : Lanes) (k : Nat) (a : Vec 2) : Lanes := put (put L (Fin.ofNat 25 k) (a 0)) (Fin.ofNat 25 (k + 1)) (a 1)

/-! ### The round -/

/-- The variables `Abage ... Asu` or `Ebage ... Esu` (xop:168-188). -/
structure V where
  (bage begi bigo bogu buga : Vec 2)
  (kame kemi kimo komu kuma : Vec 2)
  (sase siso su : Vec 2)

/-- The parities that go from one round to the next (xop:181). -/
structure C3 where
  (ae io ua : Vec 2)

/-- `thetaRhoPiChiIotaPrepareTheta(i, A, E)` (xop:192-273), `rc` being `KeccakF1600RoundConstants[i]`: the new `E` and the parities. -/
def roundPrep (rc : Lane) (A : V) (c : C3) : V × C3 :=
  let Cae := c.ae
  let Cio := c.io
  let Cua := c.ua
  let Cua := get64LOLO Cua Cae
  let Dei := xor Cae (roti Cio 1)
  let Dou := xor Cio (roti Cua 1)
  let Cei := get64HILO Cae Cio
  let Dae := xor Cua (roti Cei 1)
  let Dau := get64LOHI Dae Dou
  let Dea := swap64 Dae
  let Die := swap64 Dei
  let Doi := get64LOLO Dou Die
  let Duo := swap64 Dou
  let Bbage := xor (get64LOHI A.bage A.bogu) Dau
  let Bbage := rol6464 Bbage 0 20
  let Bbegi := xor (get64HILO A.bage A.kame) Dea
  let Bbegi := rol6464 Bbegi 44 3
  let Bbigo := xor (get64LOHI A.kimo A.kame) Die
  let Bbigo := rol6464 Bbigo 43 45
  let Ebage := xor Bbage (andnot Bbegi Bbigo)
  let Ebage := xor Ebage (const64 rc)
  let Cae := Ebage
  let Bbogu := xor (get64HILO A.kimo A.siso) Doi
  let Bbogu := rol6464 Bbogu 21 61
  let Ebegi := xor Bbegi (andnot Bbigo Bbogu)
  let Cei := Ebegi
  let Bbuga := xor (get64LOLO A.su A.bogu) Duo
  let Bbuga := rol6464 Bbuga 14 28
  let Ebigo := xor Bbigo (andnot Bbogu Bbuga)
  let Cio := Ebigo
  let Ebogu := xor Bbogu (andnot Bbuga Bbage)
  let Cou := Ebogu
  let Ebuga := xor Bbuga (andnot Bbage Bbegi)
  let Cua := Ebuga
  let Bkame := xor (get64LOHI A.begi A.buga) Dea
  let Bkame := rol6464 Bkame 1 36
  let Bkemi := xor (get64HILO A.begi A.kemi) Die
  let Bkemi := rol6464 Bkemi 6 10
  let Bkimo := xor (get64LOHI A.komu A.kemi) Doi
  let Bkimo := rol6464 Bkimo 25 15
  let Ekame := xor Bkame (andnot Bkemi Bkimo)
  let Cae := xor Cae Ekame
  let Bkomu := xor (get64HIHI A.komu A.siso) Duo
  let Bkomu := rol6464 Bkomu 8 56
  let Ekemi := xor Bkemi (andnot Bkimo Bkomu)
  let Cei := xor Cei Ekemi
  let Bkuma := xor (get64LOLO A.sase A.buga) Dau
  let Bkuma := rol6464 Bkuma 18 27
  let Ekimo := xor Bkimo (andnot Bkomu Bkuma)
  let Cio := xor Cio Ekimo
  let Ekomu := xor Bkomu (andnot Bkuma Bkame)
  let Cou := xor Cou Ekomu
  let Ekuma := xor Bkuma (andnot Bkame Bkemi)
  let Cua := xor Cua Ekuma
  let Bsase := xor A.bigo (swap64 Doi)
  let Bsase := rol6464 Bsase 62 55
  let Bsiso := xor A.kuma (swap64 Dau)
  let Bsiso := rol6464 Bsiso 39 41
  let Bsusa := xor (copy64HI2LO A.sase) Dei
  let Bsusa := roti Bsusa 2
  let Bsusa := get64LOLO Bsusa Bsase
  let Bsesi := get64HILO Bsase Bsiso
  let Bsosu := get64HILO Bsiso Bsusa
  let Esase := xor Bsase (andnot Bsesi Bsiso)
  let Cae := xor Cae Esase
  let Esiso := xor Bsiso (andnot Bsosu Bsusa)
  let Cio := xor Cio Esiso
  let Zero := zero128
  let Esu := get64LOLO (xor Bsusa (andnot Bsase Bsesi)) Zero
  let Cua := xor Cua Esu
  let Cae := xor Cae (get64HIHI Cua Zero)
  let Cae := xor Cae (get64LOLO Zero Cei)
  let Cio := xor Cio (get64HIHI Cei Zero)
  let Cio := xor Cio (get64LOLO Zero Cou)
  let Cua := xor Cua (get64HIHI Cou Zero)
  (⟨Ebage, Ebegi, Ebigo, Ebogu, Ebuga, Ekame, Ekemi, Ekimo, Ekomu, Ekuma, Esase, Esiso, Esu⟩, ⟨Cae, Cio, Cua⟩)

/-- `KeccakF1600RoundConstants` (xop:279-303). -/
def roundConstants : List Lane := [
  0x0000000000000001, 0x0000000000008082, 0x800000000000808a, 0x8000000080008000,
  0x000000000000808b, 0x0000000080000001, 0x8000000080008081, 0x8000000000008009,
  0x000000000000008a, 0x0000000000000088, 0x0000000080008009, 0x000000008000000a,
  0x000000008000808b, 0x800000000000008b, 0x8000000000008089, 0x8000000000008003,
  0x8000000000008002, 0x8000000000000080, 0x000000000000800a, 0x800000008000000a,
  0x8000000080008081, 0x8000000000008080, 0x0000000080000001, 0x8000000080008008]

/-- `copyFromState` (xop:305-358): the variables and the parities. -/
def copyFromState (L : Lanes) : V × C3 :=
  let Xbae := load128 L 0
  let Xba := Xbae
  let Xbe := get64HIHI Xbae Xbae
  let Cae := Xbae
  let Xbio := load128 L 2
  let Xbi := Xbio
  let Xbo := get64HIHI Xbio Xbio
  let Cio := Xbio
  let Xbu := load64 L 4
  let Cua := Xbu
  let Xgae := load128 L 5
  let Xga := Xgae
  let Xbuga := get64LOLO Xbu Xga
  let Xge := get64HIHI Xgae Xgae
  let Xbage := get64LOLO Xba Xge
  let Cae := xor Cae Xgae
  let Xgio := load128 L 7
  let Xgi := Xgio
  let Xbegi := get64LOLO Xbe Xgi
  let Xgo := get64HIHI Xgio Xgio
  let Xbigo := get64LOLO Xbi Xgo
  let Cio := xor Cio Xgio
  let Xgu := load64 L 9
  let Xbogu := get64LOLO Xbo Xgu
  let Cua := xor Cua Xgu
  let Xkae := load128 L 10
  let Xka := Xkae
  let Xke := get64HIHI Xkae Xkae
  let Cae := xor Cae Xkae
  let Xkio := load128 L 12
  let Xki := Xkio
  let Xko := get64HIHI Xkio Xkio
  let Cio := xor Cio Xkio
  let Xkuma := load128 L 14
  let Cua := xor Cua Xkuma
  let Xme := load64 L 16
  let Xkame := get64LOLO Xka Xme
  let Cae := xor Cae (get64HIHI Xkuma Xkame)
  let Xmio := load128 L 17
  let Xmi := Xmio
  let Xkemi := get64LOLO Xke Xmi
  let Xmo := get64HIHI Xmio Xmio
  let Xkimo := get64LOLO Xki Xmo
  let Cio := xor Cio Xmio
  let Xmu := load64 L 19
  let Xkomu := get64LOLO Xko Xmu
  let Cua := xor Cua Xmu
  let Xsase := load128 L 20
  let Cae := xor Cae Xsase
  let Xsiso := load128 L 22
  let Cio := xor Cio Xsiso
  let Xsu := load64 L 24
  let Cua := xor Cua Xsu
  (⟨Xbage, Xbegi, Xbigo, Xbogu, Xbuga, Xkame, Xkemi, Xkimo, Xkomu, Xkuma, Xsase, Xsiso, Xsu⟩, ⟨Cae, Cio, Cua⟩)

/-- `copyToState` (xop:360-381). -/
def copyToState (L : Lanes) (X : V) : Lanes :=
  let L := store64 L 0 X.bage
  let L := store64 L 1 X.begi
  let L := store64 L 2 X.bigo
  let L := store64 L 3 X.bogu
  let L := store128 L 4 X.buga
  let L := store64 L 6 (copy64HI2LO X.bage)
  let L := store64 L 7 (copy64HI2LO X.begi)
  let L := store64 L 8 (copy64HI2LO X.bigo)
  let L := store64 L 9 (copy64HI2LO X.bogu)
  let L := store64 L 10 X.kame
  let L := store64 L 11 X.kemi
  let L := store64 L 12 X.kimo
  let L := store64 L 13 X.komu
  let L := store128 L 14 X.kuma
  let L := store64 L 16 (copy64HI2LO X.kame)
  let L := store64 L 17 (copy64HI2LO X.kemi)
  let L := store64 L 18 (copy64HI2LO X.kimo)
  let L := store64 L 19 (copy64HI2LO X.komu)
  let L := store128 L 20 X.sase
  let L := store128 L 22 X.siso
  store64 L 24 X.su

/-! ### The loops over the rounds -/

/-- The local variables of a permutation function. -/
structure St where
  A : V
  E : V
  c : C3

/-- `thetaRhoPiChiIotaPrepareTheta(i, A, E)` and, being the same here, `thetaRhoPiChiIota(i, A, E)` (xop:206, 277). -/
def AE (i : Nat) (s : St) : St :=
  let r := roundPrep (roundConstants.getD i 0) s.A s.c
  ⟨s.A, r.1, r.2⟩

/-- `thetaRhoPiChiIotaPrepareTheta(i, E, A)`, `thetaRhoPiChiIota(i, E, A)` (xop:206, 277). -/
def EA (i : Nat) (s : St) : St :=
  let r := roundPrep (roundConstants.getD i 0) s.E s.c
  ⟨r.1, s.E, r.2⟩

/-- `copyStateVariables(A, E)` (xop:383-396). -/
def copyAE (s : St) : St := { s with A := s.E }

/-- `for(; i<24; i+=step) body(i)`; the fuel 24 is always enough for `step > 0`. -/
def forLoop (step : Nat) (body : Nat → St → St) : Nat → Nat → St → St
  | 0, _, s => s
  | fuel + 1, i, s => if i < 24 then forLoop step body fuel (i + step) (body i s) else s

/-- Two rounds of an unrolled body. -/
def two (i : Nat) (s : St) : St := EA (i + 1) (AE i s)

/-- `rounds24` (unr:18-43, 77-92, 126-135, 165-172, 198-205, 233-238, 262-267); `prepareTheta` is empty (xop:190). -/
def rounds24 (unr : Unrolling) (s : St) : St :=
  match unr with
  | .full => two 22 <| two 20 <| two 18 <| two 16 <| two 14 <| two 12 <| two 10 <| two 8 <| two 6 <| two 4 <| two 2 <| two 0 s
  | .u12 => forLoop 12 (fun i s => two (i + 10) <| two (i + 8) <| two (i + 6) <| two (i + 4) <| two (i + 2) <| two i s) 24 0 s
  | .u6 => forLoop 6 (fun i s => two (i + 4) <| two (i + 2) <| two i s) 24 0 s
  | .u4 => forLoop 4 (fun i s => two (i + 2) <| two i s) 24 0 s
  | .u3 => forLoop 3 (fun i s => copyAE <| AE (i + 2) <| two i s) 24 0 s
  | .u2 => forLoop 2 two 24 0 s
  | .u1 => forLoop 1 (fun i s => copyAE <| AE i s) 24 0 s

/-- `rounds12` (unr:45-58, 94-107, 137-146, 174-181, 207-214, 240-245, 269-274). -/
def rounds12 (unr : Unrolling) (s : St) : St :=
  match unr with
  | .full => two 22 <| two 20 <| two 18 <| two 16 <| two 14 <| two 12 s
  | .u12 => two 22 <| two 20 <| two 18 <| two 16 <| two 14 <| two 12 s
  | .u6 => forLoop 6 (fun i s => two (i + 4) <| two (i + 2) <| two i s) 24 12 s
  | .u4 => forLoop 4 (fun i s => two (i + 2) <| two i s) 24 12 s
  | .u3 => forLoop 3 (fun i s => copyAE <| AE (i + 2) <| two i s) 24 12 s
  | .u2 => forLoop 2 two 24 12 s
  | .u1 => forLoop 1 (fun i s => copyAE <| AE i s) 24 12 s

/-- `roundsN(__nrounds)` (unr:294-305), for `nrounds ≤ 24` (`i` is unsigned). -/
def roundsN (nrounds : Nat) (s : St) : St :=
  let i := 24 - nrounds
  let r := if i % 2 ≠ 0 then (copyAE (AE i s), i + 1) else (s, i)
  forLoop 2 two 24 r.2 r.1

/-- `KeccakP1600_Permute_Nrounds` (xop:400-409).  `E0` stands for the values of the uninitialised local variables. -/
def permuteNrounds (E0 : V) (L : Lanes) (nr : Nat) : Lanes :=
  copyToState L (roundsN nr ⟨(copyFromState L).1, E0, (copyFromState L).2⟩).A

/-- `KeccakP1600_Permute_12rounds` (xop:413-424). -/
def permute12 (unr : Unrolling) (E0 : V) (L : Lanes) : Lanes :=
  copyToState L (rounds12 unr ⟨(copyFromState L).1, E0, (copyFromState L).2⟩).A

/-- `KeccakP1600_Permute_24rounds` (xop:428-439). -/
def permute24 (unr : Unrolling) (E0 : V) (L : Lanes) : Lanes :=
  copyToState L (rounds24 unr ⟨(copyFromState L).1, E0, (copyFromState L).2⟩).A

/-! ### Byte access -/

open KeccakP1600 (getLane setLane readLane memWrite memRead loopM)

/-- `KeccakP1600_Initialize` (xop:84-87). -/
def initState : Lanes := fun _ => 0

/-- The variable `lane` of `KeccakP1600_AddBytesInLane` (xop:95-101). -/
def partialLane (d : Bytes) (length : Nat) : Option Lane :=
  if length = 1 then some ((d.getD 0 0).setWidth 64)
  else if length ≤ 8 then some (KeccakP1600.wordOfBytes d) else none

/-- `lane <<= offset*8` (xop:102): undefined for a shift by 64 or more. -/
def shiftLane (lane : Lane) (offset : Nat) : Option Lane := if offset * 8 < 64 then some (lane <<< (offset * 8)) else none

/-- `KeccakP1600_AddBytesInLane` (xop:91-104). -/
def addBytesInLane (A : Lanes) (lanePosition : Nat) (data : Bytes) (offset length : Nat) : Option Lanes :=
  if length = 0 then some A
  else do
    let d ← SnP.readBuf data length
    let lane ← partialLane d length
    let lane ← shiftLane lane offset
    let a ← getLane A lanePosition
    setLane A lanePosition (a ^^^ lane)

/-- `state->A[i+j] ^= ((uint64_t*)data)[i+j]` for `j = 0 .. n-1` (xop:112-119, 122-125, 128-129, 132). -/
def xorLanes (data : Bytes) (i n : Nat) (A : Lanes) : Option Lanes :=
  loopM (fun j A => do
    let w ← readLane data j
    let a ← getLane A j
    setLane A j (a ^^^ w)) i n A

/-- `for( ; (i+n)<=laneCount; i+=n)` around `n` unrolled lane additions (xop:111-130). -/
def addLanesLoop (data : Bytes) (laneCount n : Nat) : Nat → Nat → Lanes → Option (Nat × Lanes)
  | 0, _, _ => none
  | fuel + 1, i, A =>
    if i + n ≤ laneCount then do
      let A ← xorLanes data i n A
      addLanesLoop data laneCount n fuel (i + n) A
    else some (i, A)

/-- `KeccakP1600_AddLanes` (xop:108-134). -/
def addLanes (A : Lanes) (data : Bytes) (laneCount : Nat) : Option Lanes := do
  let (i, A) ← addLanesLoop data laneCount 8 (laneCount + 1) 0 A
  let (i, A) ← addLanesLoop data laneCount 4 (laneCount + 1) i A
  let (i, A) ← addLanesLoop data laneCount 2 (laneCount + 1) i A
  if i < laneCount then xorLanes data i 1 A else some A

/-- `KeccakP1600_AddByte` (xop:138-143). -/
def addByte (A : Lanes) (b : Byte) (offset : Nat) : Option Lanes := do
  let lane := b.setWidth 64 <<< (offset % 8 * 8)
  let a ← getLane A (offset / 8)
  setLane A (offset / 8) (a ^^^ lane)

/-- `KeccakP1600_AddBytes` (xop:147-150). -/
def addBytes (A : Lanes) (data : Bytes) (offset length : Nat) : Option Lanes :=
  Relaned.writeBytes 8 addLanes addBytesInLane A data offset length

/-- `KeccakP1600_OverwriteBytes` (xop:154-157). -/
def overwriteBytes (A : Lanes) (data : Bytes) (offset length : Nat) : Option Lanes := do
  let d ← SnP.readBuf data length
  memWrite A offset d

/-- `KeccakP1600_OverwriteWithZeroes` (xop:161-164). -/
def overwriteWithZeroes (A : Lanes) (byteCount : Nat) : Option Lanes := memWrite A 0 (List.replicate byteCount 0)

/-- `KeccakP1600_ExtractBytes` (xop:443-446). -/
def extractBytes (A : Lanes) (offset length : Nat) : Option Bytes := memRead A offset length

/-- `KeccakP1600_ExtractAndAddBytesInLane` (xop:450-458). -/
def extractAndAddBytesInLane (A : Lanes) (lanePosition : Nat) (input : Bytes) (offset length : Nat) : Option Bytes := do
  let lane ← getLane A lanePosition
  loopM (fun i output => do
    let d ← input[i]?
    let a ← (KeccakP1600.bytesOfWord lane)[offset + i]?
    some (output ++ [d ^^^ a])) 0 length []

/-- `KeccakP1600_ExtractAndAddLanes` (xop:462-469): the bytes written by the rounds of the loop from `i` on. -/
def extractAndAddLanesFrom (A : Lanes) (input : Bytes) : Nat → Nat → Option Bytes
  | _, 0 => some []
  | i, n + 1 => do
    let w ← readLane input i
    let a ← getLane A i
    let os ← extractAndAddLanesFrom A input (i + 1) n
    some (KeccakP1600.bytesOfWord (w ^^^ a) ++ os)

/-- `KeccakP1600_ExtractAndAddLanes` (xop:462-469). -/
def extractAndAddLanes (A : Lanes) (input : Bytes) (laneCount : Nat) : Option Bytes := extractAndAddLanesFrom A input 0 laneCount

/-- The functions given to the macros of SnP-Relaned.h (xop:149, 475); the ones for the two other macros are not used. -/
def ops : LaneOps Lanes where
  addLanes := addLanes
  addBytesInLane := addBytesInLane
  overwriteLanes := fun _ _ _ => none
  overwriteBytesInLane := fun _ _ _ _ _ => none
  extractLanes := fun _ _ => none
  extractBytesInLane := fun _ _ _ _ => none
  extractAndAddLanes := extractAndAddLanes
  extractAndAddBytesInLane := extractAndAddBytesInLane

/-- The byte access functions (xop:84-164, 443-476). -/
def access : Access Lanes where
  init := initState
  addByte := addByte
  addBytes := addBytes
  overwriteBytes := overwriteBytes
  overwriteWithZeroes := overwriteWithZeroes
  extractBytes := extractBytes
  extractAndAddBytes := Relaned.extractAndAddBytes 8 ops

end Xop
