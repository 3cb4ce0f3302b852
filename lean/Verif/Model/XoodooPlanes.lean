import Verif.Model.Simd32
import Verif.Model.Xoodyak
import Verif.Model.XoofffSimd

/-!
# The SIMD implementations of one Xoodoo state

Models `lib/low/Xoodoo/SSE2/Xoodoo-SIMD128.c` (cited as `S128`), `lib/low/Xoodoo/SSE2/Xoodyak-full-block-SIMD128.c` (`F128`),
`lib/low/Xoodoo/AVX512/Xoodoo-SIMD512.c` (`S512`) and `lib/low/Xoodoo/AVX512/Xoodyak-full-block-SIMD512.c` (`F512`).  A plane of the
state, four lanes, is one 128-bit register.  `F128` and `F512` repeat the macros of `S128` and `S512`; both copies are cited.

The state in memory is an array of 12 lanes (`Xoodoo_align128plain32_state`).  Data buffers are lists of bytes, and pointers into them
are positions.  `size_t` is computed modulo `2^64`.  Not modelled: the `Dump` macros (debugging), alignment, and the variant of
`Xoodyak_DecryptFullBlocks` for 32-bit SSE2 without SSE4.1 (F128:349-356), which calls `_mm_cvtsi128_si32` with two arguments and does
not compile.
-/

namespace XoodooPlanes

open Xoodoo (Lane Lanes wordOfBytes bytesOfWord lanesOfBytes bytesOfLanes)
open KeccakP1600 (loopFrom)
open Simd32 (Vec ofList loadVec storeVec loadWord storeWord extractEpi32 insertEpi32 bytesOfVec)

/-- The instruction sets: `S128`, `S128` with `Waffel_useXOP` defined, and `S512`. -/
inductive Isa
  | sse
  | xop
  | avx512
  deriving DecidableEq

/-- The registers `a0`, `a1`, `a2` (S128:210, S512:323; also `r0`, `r1`, `r2`, S512:473). -/
structure Planes where
  a0 : Vec 4
  a1 : Vec 4
  a2 : Vec 4

/-- `_mm_shuffle_epi32`: two bits of `c` select the lane that goes to each position. -/
def shuffleEpi32 (a : Vec 4) (c : Nat) : Vec 4 := fun l => a.at (c / 4 ^ l.val % 4)

/-- `_mm_set_epi32`: the arguments are the lanes from the last to the first. -/
def setEpi32 (e3 e2 e1 e0 : Lane) : Vec 4 := ofList 4 [e0, e1, e2, e3]

/-- `ROL32in128` (S128:202-206, F128:78-82) and `ROL32` (S512:306, F512:77). -/
def rol (isa : Isa) (a : Vec 4) (o : Nat) : Vec 4 :=
  match isa with
  | .sse => Simd32.or (Simd32.slli a o) (Simd32.srli a (32 - o))
  | .xop => Simd32.roti a o
  | .avx512 => Simd32.roti a o

/-- `maskRhoEast2` (S128:192-197, F128:67-72, S512:295-300, F512:66-71). -/
def maskRhoEast2 : Bytes := [11, 8, 9, 10, 15, 12, 13, 14, 3, 0, 1, 2, 7, 4, 5, 6]

/-- `rhoEast2` (S128:211, F128:89, S512:323, F512:86). -/
def rhoEast2 : Vec 4 := fun l => wordOfBytes (maskRhoEast2.drop (4 * l.val))

/-- `Round` of the SSE2 files: `Theta`, `Rho_west`, `Iota`, `Chi`, `Rho_east` (S128:220-265, F128:98-144). -/
def round128 (isa : Isa) (rc : Lane) (s : Planes) : Planes :=
  let p := Simd32.xor s.a0 s.a1
  let p := Simd32.xor p s.a2
  let p := shuffleEpi32 p 0x93
  let e := rol isa p 5
  let p := rol isa p 14
  let e := Simd32.xor e p
  let a0 := Simd32.xor s.a0 e
  let a1 := Simd32.xor s.a1 e
  let a2 := Simd32.xor s.a2 e
  let a1 := shuffleEpi32 a1 0x93
  let a2 := rol isa a2 11
  let a0 := Simd32.xor a0 (setEpi32 0 0 0 rc)
  let a0 := Simd32.xor a0 (Simd32.andnot a1 a2)
  let a1 := Simd32.xor a1 (Simd32.andnot a2 a0)
  let a2 := Simd32.xor a2 (Simd32.andnot a0 a1)
  let a1 := rol isa a1 1
  let a2 := Simd32.shuffleEpi8 a2 rhoEast2
  ⟨a0, a1, a2⟩

/-- `Round` of the AVX-512 files (S512:327-356, F512:92-121). -/
def round512 (rc : Lane) (s : Planes) : Planes :=
  let p := Simd32.ternarylogic s.a0 s.a1 s.a2 0x96
  let p := shuffleEpi32 p 0x93
  let e := rol .avx512 p 5
  let p := rol .avx512 p 14
  let a0 := Simd32.ternarylogic s.a0 e p 0x96
  let a1 := Simd32.ternarylogic s.a1 e p 0x96
  let a2 := Simd32.ternarylogic s.a2 e p 0x96
  let a1 := shuffleEpi32 a1 0x93
  let a2 := rol .avx512 a2 11
  let a0 := Simd32.xor a0 (setEpi32 0 0 0 rc)
  let a0 := Simd32.ternarylogic a0 a1 a2 0xD2
  let a1 := Simd32.ternarylogic a1 a2 a0 0xD2
  let a2 := Simd32.ternarylogic a2 a0 a1 0xD2
  let a1 := rol .avx512 a1 1
  let a2 := Simd32.shuffleEpi8 a2 rhoEast2
  ⟨a0, a1, a2⟩

/-- `Round` of the implementation. -/
def round (isa : Isa) (rc : Lane) (s : Planes) : Planes :=
  match isa with
  | .avx512 => round512 rc s
  | _ => round128 isa rc s

/-- `Round(_rc6); ... Round(_rc1);` (S128:301-306, S512:392-397, 492-497, 552-557), with the constants of Xoodoo.h:35-40. -/
def rounds6 (isa : Isa) (s : Planes) : Planes :=
  let s := round isa 0x00000060 s
  let s := round isa 0x0000002C s
  let s := round isa 0x00000380 s
  let s := round isa 0x000000F0 s
  let s := round isa 0x000001A0 s
  round isa 0x00000012 s

/-- `Round(_rc12); ... Round(_rc1);` (S128:316-327, S512:407-418, and in every loop of `F128` and `F512`), with the constants of
Xoodoo.h:29-40. -/
def rounds12 (isa : Isa) (s : Planes) : Planes :=
  let s := round isa 0x00000058 s
  let s := round isa 0x00000038 s
  let s := round isa 0x000003C0 s
  let s := round isa 0x000000D0 s
  let s := round isa 0x00000120 s
  let s := round isa 0x00000014 s
  let s := round isa 0x00000060 s
  let s := round isa 0x0000002C s
  let s := round isa 0x00000380 s
  let s := round isa 0x000000F0 s
  let s := round isa 0x000001A0 s
  round isa 0x00000012 s

/-- `State2Vars` (S128:213, F128:91, S512:324, F512:88). -/
def state2Vars (A : Lanes) : Planes :=
  ⟨fun l => A ⟨l.val, by omega⟩, fun l => A ⟨4 + l.val, by omega⟩, fun l => A ⟨8 + l.val, by omega⟩⟩

/-- `Vars2State` (S128:215, F128:93, S512:325, F512:90). -/
def vars2State (s : Planes) : Lanes := fun i =>
  if i.val < 4 then s.a0.at i.val else if i.val < 8 then s.a1.at (i.val - 4) else s.a2.at (i.val - 8)

/-- `Xoodoo_Permute_Nrounds` (S128:282-294, S512:373-385).  `MAXROUNDS - nr` is computed on `unsigned int`: for `nr > 12` there is no
iteration. -/
def permuteNrounds (isa : Isa) (nr : Nat) (A : Lanes) : Lanes :=
  vars2State (if nr ≤ 12 then loopFrom (fun i s => round isa (Xoodoo.RC.getD i 0) s) (12 - nr) nr (state2Vars A) else state2Vars A)

/-- `Xoodoo_Permute_6rounds` (S128:296-309, S512:387-400). -/
def permute6 (isa : Isa) (A : Lanes) : Lanes := vars2State (rounds6 isa (state2Vars A))

/-- `Xoodoo_Permute_12rounds` (S128:311-330, S512:402-421). -/
def permute12 (isa : Isa) (A : Lanes) : Lanes := vars2State (rounds12 isa (state2Vars A))

/-! ### Byte access -/

/-- `Xoodoo_Initialize` (S128:65-68, S512:166-169). -/
def initState : Lanes := fun _ => 0

/-- `Xoodoo_AddBytes` (S128:72-107, S512:173-208): the statements of the plain implementation without its case of 48 bytes. -/
def addBytes (A : Lanes) (data : Bytes) (offset length : Nat) : Option Lanes := do
  let st ← Xoodoo.Opt.addFirst A data offset length
  let st ← Xoodoo.Opt.addWords (length + 1) st.1 st.2.1 st.2.2.1 st.2.2.2
  if st.2.2.2 > 0 then do
    let d ← SnP.readBuf st.2.2.1 st.2.2.2
    let w ← Xoodoo.Opt.memLane 0 d
    Xoodoo.Opt.xorLane st.1 st.2.1 w
  else some st.1

/-- `Xoodoo_OverwriteBytes` (S128:111-118, S512:212-219): `memcpy`. -/
def overwriteBytes (A : Lanes) (data : Bytes) (offset length : Nat) : Option Lanes := do
  let d ← SnP.readBuf data length
  if offset + length ≤ 48 then some (lanesOfBytes (Bytes.setAt (bytesOfLanes A) offset d)) else none

/-- `Xoodoo_ExtractAndAddBytes` (S128:144-186, S512:245-287): the statements of the plain implementation without its case of 48 bytes. -/
def extractAndAddBytes (A : Lanes) (input : Bytes) (offset length : Nat) : Option Bytes := do
  let st ← Xoodoo.Opt.xorFirst A input offset length
  let st' ← Xoodoo.Opt.xorWords A (length + 1) st.2.1 st.2.2.1 st.2.2.2
  if st'.2.2.2 > 0 then do
    let a ← Xoodoo.Opt.getLane A st'.2.1
    let d ← SnP.readBuf st'.2.2.1 st'.2.2.2
    some (st.1 ++ st'.1 ++ Xoodoo.Opt.shiftOut a d)
  else some (st.1 ++ st'.1)

/-- The byte access functions (S128:65-186, S512:166-287; `Xoodoo_AddByte` in SSE2/Xoodoo-SnP.h and AVX512/Xoodoo-SnP.h);
`Xoodoo_AddByte`, `Xoodoo_OverwriteWithZeroes` (`memset`, S128:122-129, S512:223-230) and `Xoodoo_ExtractBytes` (`memcpy`, S128:133-140,
S512:234-241) have the text of the plain implementation. -/
def access : Access Lanes where
  init := initState
  addByte := Xoodoo.Opt.addByte
  addBytes := addBytes
  overwriteBytes := overwriteBytes
  overwriteWithZeroes := Xoodoo.Opt.overwriteWithZeroes
  extractBytes := Xoodoo.Opt.extractBytes
  extractAndAddBytes := extractAndAddBytes

/-! ### Xoodyak, full blocks -/

/-- `a - b` on `size_t`. -/
def sub64 (a b : Nat) : Nat := (a + 2 ^ 64 - b) % 2 ^ 64

/-- The addition of a block in `Xoodyak_AbsorbKeyedFullBlocks` (F128:180-182, F512:157-159). -/
def addKeyed (s : Planes) (X : Bytes) : Option Planes := do
  let x0 ← loadVec 4 X 0
  let x1 ← loadVec 4 X 16
  let w40 ← loadWord X 40
  let w36 ← loadWord X 36
  let w32 ← loadWord X 32
  some ⟨Simd32.xor s.a0 x0, Simd32.xor s.a1 x1, Simd32.xor s.a2 (setEpi32 1 w40 w36 w32)⟩

/-- The addition of a block in `Xoodyak_AbsorbHashFullBlocks` (F128:211-212, F512:188-189), with `one` of F128:194, F512:171. -/
def addHash (s : Planes) (X : Bytes) : Option Planes := do
  let x0 ← loadVec 4 X 0
  some ⟨Simd32.xor s.a0 x0, Simd32.xor s.a1 (setEpi32 0 0 0 1), s.a2⟩

/-- The loops `do ... while (XLen >= r)` of the absorbing functions (F128:167-185, 198-215, F512:144-162, 175-192): the registers and what is
left of `XLen`. -/
def absorbLoop (isa : Isa) (r : Nat) (add : Planes → Bytes → Option Planes) : Nat → Planes → Bytes → Nat → Option (Planes × Nat)
  | 0, _, _, _ => none
  | fuel + 1, s, X, XLen => do
    let s ← add (rounds12 isa s) X
    let X := X.drop r
    let XLen := sub64 XLen r
    if XLen ≥ r then absorbLoop isa r add fuel s X XLen else some (s, XLen)

/-- `Xoodyak_AbsorbKeyedFullBlocks` (F128:161-189, F512:138-166): the state and the returned value. -/
def absorbKeyedFullBlocks (isa : Isa) (A : Lanes) (X : Bytes) (XLen : Nat) : Option (Lanes × Nat) := do
  let st ← absorbLoop isa 44 addKeyed (XLen + 1) (state2Vars A) X XLen
  some (vars2State st.1, sub64 XLen st.2)

/-- `Xoodyak_AbsorbHashFullBlocks` (F128:191-219, F512:168-196). -/
def absorbHashFullBlocks (isa : Isa) (A : Lanes) (X : Bytes) (XLen : Nat) : Option (Lanes × Nat) := do
  let st ← absorbLoop isa 16 addHash (XLen + 1) (state2Vars A) X XLen
  some (vars2State st.1, sub64 XLen st.2)

/-- `STORE64L` (F128:85, F512:80): the two low lanes. -/
def storeLow (buf : Bytes) (at_ : Nat) (v : Vec 4) : Option Bytes := SnP.overwriteBytes buf (bytesOfWord (v 0) ++ bytesOfWord (v 1)) at_

/-- `STORE128u(Y[0], a0); STORE64L(Y[16], a1);` (F128:243-244, F512:220-221; the same with `O`: F128:304-305, F512:281-282). -/
def storeKeyed (s : Planes) (Y : Bytes) (o : Nat) : Option Bytes := do
  let Y ← storeVec Y o s.a0
  storeLow Y (o + 16) s.a1

/-- `STORE128u(Y[0], a0);` (F128:274, F512:251). -/
def storeHash (s : Planes) (Y : Bytes) (o : Nat) : Option Bytes := storeVec Y o s.a0

/-- The loops of the squeezing functions (F128:229-247, 260-277, F512:206-224, 237-254), with `one` of F128:225, 256 and F512:202, 233, and
with the pointer `Y` at position `o` of the buffer. -/
def squeezeLoop (isa : Isa) (r : Nat) (store : Planes → Bytes → Nat → Option Bytes) :
    Nat → Planes → Bytes → Nat → Nat → Option (Planes × Bytes × Nat)
  | 0, _, _, _, _ => none
  | fuel + 1, s, Y, o, YLen => do
    let s := { s with a0 := Simd32.xor s.a0 (setEpi32 0 0 0 1) }
    let s := rounds12 isa s
    let Y ← store s Y o
    let YLen := sub64 YLen r
    if YLen ≥ r then squeezeLoop isa r store fuel s Y (o + r) YLen else some (s, Y, YLen)

/-- `Xoodyak_SqueezeKeyedFullBlocks` (F128:222-251, F512:199-228): the state, the buffer and the returned value. -/
def squeezeKeyedFullBlocks (isa : Isa) (A : Lanes) (Y : Bytes) (o YLen : Nat) : Option (Lanes × Bytes × Nat) := do
  let st ← squeezeLoop isa 24 storeKeyed (YLen + 1) (state2Vars A) Y o YLen
  some (vars2State st.1, st.2.1, sub64 YLen st.2.2)

/-- `Xoodyak_SqueezeHashFullBlocks` (F128:253-281, F512:230-258). -/
def squeezeHashFullBlocks (isa : Isa) (A : Lanes) (Y : Bytes) (o YLen : Nat) : Option (Lanes × Bytes × Nat) := do
  let st ← squeezeLoop isa 16 storeHash (YLen + 1) (state2Vars A) Y o YLen
  some (vars2State st.1, st.2.1, sub64 YLen st.2.2)

/-- One block of `Xoodyak_EncryptFullBlocks` (F128:302-305, F512:279-282), with `I` at position `i` and `O` at position `o` of the same
memory: the registers and the memory. -/
def encryptBlock (s : Planes) (mem : Bytes) (i o : Nat) : Option (Planes × Bytes) := do
  let x0 ← loadVec 4 mem i
  let a0 := Simd32.xor s.a0 x0
  let w20 ← loadWord mem (i + 20)
  let w16 ← loadWord mem (i + 16)
  let a1 := Simd32.xor s.a1 (setEpi32 0 1 w20 w16)
  let s : Planes := ⟨a0, a1, s.a2⟩
  let mem ← storeKeyed s mem o
  some (s, mem)

/-- `*((uint64_t*)p)`, read as the pair of the low and of the high word. -/
def load64 (mem : Bytes) (at_ : Nat) : Option (Lane × Lane) := do
  let lo ← loadWord mem at_
  let hi ← loadWord mem (at_ + 4)
  some (lo, hi)

/-- `*((uint64_t*)p) = w;` -/
def store64 (mem : Bytes) (at_ : Nat) (w : Lane × Lane) : Option Bytes := SnP.overwriteBytes mem (bytesOfWord w.1 ++ bytesOfWord w.2) at_

/-- `^` on 64-bit words. -/
def xor64 (v w : Lane × Lane) : Lane × Lane := (v.1 ^^^ w.1, v.2 ^^^ w.2)

/-- `_mm_extract_epi64`; `_mm_cvtsi128_si64` for `k = 0`. -/
def extractEpi64 (a : Vec 4) (k : Nat) : Lane × Lane := (a.at (2 * k), a.at (2 * k + 1))

/-- `_mm_insert_epi64`. -/
def insertEpi64 (a : Vec 4) (w : Lane × Lane) (k : Nat) : Vec 4 := fun l =>
  if l.val = 2 * k then w.1 else if l.val = 2 * k + 1 then w.2 else a l

/-- `_mm_srli_si128(a, 8)`. -/
def srli8 (a : Vec 4) : Vec 4 := fun l => a.at (l.val + 2)

/-- `_mm_set_epi64x`: the high word first. -/
def setEpi64x (hi lo : Lane × Lane) : Vec 4 := ofList 4 [lo.1, lo.2, hi.1, hi.2]

/-- The variants of the code for bytes 16 to 23 in `Xoodyak_DecryptFullBlocks`: with `_mm_extract_epi32` and `_mm_insert_epi32` (F128:339-342,
F512:315-318), with `_mm_extract_epi64` and `_mm_insert_epi64` (F128:344-345, F512:320-321), and with `_mm_cvtsi128_si64` and
`_mm_set_epi64x` (F128:358-362). -/
inductive Half
  | w32
  | w64
  | cvt64
  deriving DecidableEq

/-- Bytes 16 to 23 in `Xoodyak_DecryptFullBlocks`: `a1` and the memory. -/
def decryptHalf (v : Half) (a1 : Vec 4) (mem : Bytes) (i o : Nat) : Option (Vec 4 × Bytes) :=
  match v with
  | .w32 => do
    let w ← loadWord mem (i + 16)
    let mem ← storeWord mem (o + 16) (w ^^^ extractEpi32 a1 0)
    let w ← loadWord mem (i + 20)
    let mem ← storeWord mem (o + 20) (w ^^^ extractEpi32 a1 1)
    let w ← loadWord mem (i + 16)
    let a1 := insertEpi32 a1 w 0
    let w ← loadWord mem (i + 20)
    let a1 := insertEpi32 a1 w 1
    some (a1, mem)
  | .w64 => do
    let w ← load64 mem (i + 16)
    let mem ← store64 mem (o + 16) (xor64 w (extractEpi64 a1 0))
    let w ← load64 mem (i + 16)
    some (insertEpi64 a1 w 0, mem)
  | .cvt64 => do
    let w ← load64 mem (i + 16)
    let mem ← store64 mem (o + 16) (xor64 w (extractEpi64 a1 0))
    let w ← load64 mem (i + 16)
    some (setEpi64x (extractEpi64 (srli8 a1) 0) w, mem)

/-- One block of `Xoodyak_DecryptFullBlocks` (F128:336-367, F512:313-325), with `one` of F128:319, F512:296. -/
def decryptBlock (v : Half) (s : Planes) (mem : Bytes) (i o : Nat) : Option (Planes × Bytes) := do
  let x0 ← loadVec 4 mem i
  let o0 := Simd32.xor s.a0 x0
  let st ← decryptHalf v s.a1 mem i o
  let mem ← storeVec st.2 o o0
  some (⟨Simd32.xor s.a0 o0, Simd32.xor st.1 (setEpi32 0 1 0 0), s.a2⟩, mem)

/-- The loops of `Xoodyak_EncryptFullBlocks` (F128:289-309, F512:266-286) and `Xoodyak_DecryptFullBlocks` (F128:323-371, F512:300-329). -/
def cryptLoop (isa : Isa) (block : Planes → Bytes → Nat → Nat → Option (Planes × Bytes)) :
    Nat → Planes → Bytes → Nat → Nat → Nat → Option (Planes × Bytes × Nat)
  | 0, _, _, _, _, _ => none
  | fuel + 1, s, mem, i, o, IOLen => do
    let st ← block (rounds12 isa s) mem i o
    let IOLen := sub64 IOLen 24
    if IOLen ≥ 24 then cryptLoop isa block fuel st.1 st.2 (i + 24) (o + 24) IOLen else some (st.1, st.2, IOLen)

/-- `Xoodyak_EncryptFullBlocks` (F128:283-313, F512:260-290): the state, the memory and the returned value. -/
def encryptFullBlocks (isa : Isa) (A : Lanes) (mem : Bytes) (i o IOLen : Nat) : Option (Lanes × Bytes × Nat) := do
  let st ← cryptLoop isa encryptBlock (IOLen + 1) (state2Vars A) mem i o IOLen
  some (vars2State st.1, st.2.1, sub64 IOLen st.2.2)

/-- `Xoodyak_DecryptFullBlocks` (F128:315-375, F512:292-333). -/
def decryptFullBlocks (isa : Isa) (v : Half) (A : Lanes) (mem : Bytes) (i o IOLen : Nat) : Option (Lanes × Bytes × Nat) := do
  let st ← cryptLoop isa (decryptBlock v) (IOLen + 1) (state2Vars A) mem i o IOLen
  some (vars2State st.1, st.2.1, sub64 IOLen st.2.2)

/-! ### Xoofff (AVX-512) -/

/-- `rr` (S512:475, 534). -/
def rr : Vec 4 := ofList 4 [1, 2, 3, 4]

/-- `c7` (S512:535). -/
def c7 : Vec 4 := ofList 4 [7, 0, 0, 0]

/-- The three registers at the beginning of a buffer (S512:478-484, 487-489, 538-544). -/
def load3 (buf : Bytes) : Option Planes := do
  let a0 ← loadVec 4 buf 0
  let a1 ← loadVec 4 buf (4 * 4)
  let a2 ← loadVec 4 buf (8 * 4)
  some ⟨a0, a1, a2⟩

/-- Storing three registers at position `o` (S512:518-524, 560-562, 577-579). -/
def store3 (buf : Bytes) (o : Nat) (s : Planes) : Option Bytes := do
  let buf ← storeVec buf o s.a0
  let buf ← storeVec buf (o + 4 * 4) s.a1
  storeVec buf (o + 8 * 4) s.a2

/-- `XOR` of three registers with three others (S512:487-489, 500-502, 560-562). -/
def xor3 (s t : Planes) : Planes := ⟨Simd32.xor s.a0 t.a0, Simd32.xor s.a1 t.a1, Simd32.xor s.a2 t.a2⟩

/-- roll-c (S512:505-510). -/
def rollc (r : Planes) : Planes :=
  let p := Simd32.ternarylogic r.a0 (Simd32.slli r.a0 13) (rol .avx512 r.a1 3) 0x96
  let p := Simd32.permutex2var r.a0 rr p
  ⟨r.a1, r.a2, p⟩

/-- roll-e (S512:564-570). -/
def rolle (r : Planes) : Planes :=
  let p := Simd32.ternarylogic (rol .avx512 r.a0 5) (rol .avx512 r.a1 13) (Simd32.and r.a2 r.a1) 0x96
  let p := Simd32.xor p c7
  let p := Simd32.permutex2var r.a0 rr p
  ⟨r.a1, r.a2, p⟩

/-- The loop of `Xoofff_CompressFastLoop` (S512:486-516): `r`, `x` and what is left of `length`. -/
def compressLoop : Nat → Planes → Planes → Bytes → Nat → Option (Planes × Planes × Nat)
  | 0, _, _, _, _ => none
  | fuel + 1, r, x, input, length => do
    let d ← load3 input
    let a := rounds6 .avx512 (xor3 r d)
    let x := xor3 x a
    let r := rollc r
    let length := sub64 length 48
    if length ≥ 48 then compressLoop fuel r x (input.drop 48) length else some (r, x, length)

/-- `Xoofff_CompressFastLoop` (S512:470-527): `kRoll`, `xAccu` and the returned value. -/
def compressFastLoop (kRoll xAccu input : Bytes) (length : Nat) : Option (Bytes × Bytes × Nat) := do
  let r ← load3 kRoll
  let x ← load3 xAccu
  let st ← compressLoop (length + 1) r x input length
  let kRoll ← store3 kRoll 0 st.1
  let xAccu ← store3 xAccu 0 st.2.1
  some (kRoll, xAccu, sub64 length st.2.2)

/-- The loop of `Xoofff_ExpandFastLoop` (S512:546-575), with `output` at position `o` of its buffer: `r`, the buffer and what is left of
`length`. -/
def expandLoop (k : Planes) : Nat → Planes → Bytes → Nat → Nat → Option (Planes × Bytes × Nat)
  | 0, _, _, _, _ => none
  | fuel + 1, r, output, o, length => do
    let a := rounds6 .avx512 r
    let output ← store3 output o (xor3 k a)
    let r := rolle r
    let length := sub64 length 48
    if length ≥ 48 then expandLoop k fuel r output (o + 48) length else some (r, output, length)

/-- `Xoofff_ExpandFastLoop` (S512:529-582): `yAccu`, the output buffer and the returned value. -/
def expandFastLoop (yAccu kRoll output : Bytes) (length : Nat) : Option (Bytes × Bytes × Nat) := do
  let r ← load3 yAccu
  let k ← load3 kRoll
  let st ← expandLoop k (length + 1) r output 0 length
  let yAccu ← store3 yAccu 0 st.1
  some (yAccu, st.2.1, sub64 length st.2.2)

end XoodooPlanes
