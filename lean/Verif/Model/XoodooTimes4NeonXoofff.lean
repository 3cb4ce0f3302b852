import Verif.Model.XoodooTimes4Neon

/-!
# The functions of Xoofff in the ARMv7-A NEON implementation of four instances of Xoodoo

A model of `lib/low/Xoodoo-times4/ARMv7A-NEON/Xoodoo-times4-ARMv7A.s` (cited as `s`) from line 946 to the end, instruction by instruction:
`Xooffftimes4_AddIs`, `Xooffftimes4_CompressFastLoop` and `Xooffftimes4_ExpandFastLoop`.  The conventions are those of `Verif.Model.XoodooTimes4Neon`.

The mask, the accumulators and `kRoll` are buffers of 48 bytes at addresses that are multiples of 4, and do not overlap; so do not the input and the output with them.
The address of the input or the output is a parameter.  The macros `theta_star`, `rho_w_star`, `chi_star` and `rho_e_star` (s:1013-1168) have the instructions of `theta`,
`rho_w`, `chi` and `rho_e` with `r5` to `r8` instead of `r1` to `r4`, so `round` models them too.
-/

namespace XoodooTimes4Neon

open Xoodoo (Lane)
open Simd32 (Vec xor loadWord storeWord)
open XoodooArm (sub32)

/-- `vzip.32 qa, qb`: the lanes interleaved. -/
def vzip (a b : Vec 4) : Vec 4 × Vec 4 := (![a 0, b 0, a 1, b 1], ![a 2, b 2, a 3, b 3])

/-- `vldm r, {d0-d5}` and the like, for three registers `q`. -/
def vldm3 (base : Nat) (buf : Bytes) (a : Nat) : Option (Vec 4 × Vec 4 × Vec 4) := do
  let u ← vldm base buf a
  let v ← vldm base buf (a + 16)
  let w ← vldm base buf (a + 32)
  some (u, v, w)

/-- `vstm r, {d0-d5}` and the like, for three registers `q`. -/
def vstm3 (base : Nat) (buf : Bytes) (a : Nat) (u v w : Vec 4) : Option Bytes := do
  let buf ← vstm base buf a u
  let buf ← vstm base buf (a + 16) v
  vstm base buf (a + 32) w

/-! ## `Xooffftimes4_AddIs` -/

/-- The body of `Xft4_AddIs_384` (s:961-967); `a0` and `a1` are the addresses of the output and of the input. -/
def add48 (a0 a1 : Nat) (input : Bytes) (s : XoodooArm.Wr) : Option XoodooArm.Wr := do
  let (q0, q1, q2) ← vldm3 a0 s.st s.r0
  let q8 ← vldm a1 input s.r1
  let q9 ← vldm a1 input (s.r1 + 16)
  let r1 := s.r1 + 32
  let q0 := xor q0 q8
  let q10 ← vldm a1 input r1
  let r1 := r1 + 16
  let q1 := xor q1 q9
  let q2 := xor q2 q10
  let st ← vstm3 a0 s.st s.r0 q0 q1 q2
  some ⟨st, s.r0 + 48, r1⟩

/-- The body of `Xft4_AddIs_128` (s:974-977). -/
def add16 (a0 a1 : Nat) (input : Bytes) (s : XoodooArm.Wr) : Option XoodooArm.Wr := do
  let q0 ← vldm a0 s.st s.r0
  let q1 ← vldm a1 input s.r1
  let q0 := xor q0 q1
  let st ← vstm a0 s.st s.r0 q0
  some ⟨st, s.r0 + 16, s.r1 + 16⟩

/-- A loop of `Xooffftimes4_AddIs`: `cmp r2, #c`, `bcc` out of it, the body, `sub r2, #c`, `b` (s:958-970, 971-980, 981-989, 990-998).  The first two
return when `r2` becomes 0; so do the tests that follow, which are made here instead. -/
def bitLoop (c : Nat) (body : XoodooArm.Wr → Option XoodooArm.Wr) : Nat → XoodooArm.Wr → Nat → Option (XoodooArm.Wr × Nat)
  | 0, _, _ => none
  | fuel + 1, s, r2 => if r2 < c then some (s, r2) else do
    let s ← body s
    bitLoop c body fuel s (r2 - c)

/-- The first two loops of `Xooffftimes4_AddIs` (s:953-980), which are skipped when one of the buffers is not aligned. -/
def addIsVec (a0 a1 : Nat) (output input : Bytes) (bitLen : Nat) : Option (XoodooArm.Wr × Nat) :=
  if a0 % 4 = 0 ∧ a1 % 4 = 0 then do
    let st ← bitLoop 384 (add48 a0 a1 input) (2 ^ 32) ⟨output, 0, 0⟩ bitLen
    bitLoop 128 (add16 a0 a1 input) (2 ^ 32) st.1 st.2
  else some (⟨output, 0, 0⟩, bitLen)

/-- `Xooffftimes4_AddIs` (s:951-1011).  The words may be at any address, which ARMv7-A permits for `ldr` and `str`; the bodies of the loops on words and
bytes (s:984-987, 993-996) are those of `XoodooArm`, and the last bits (s:1002-1009) are added as in `XoodooArm.addIs`. -/
def addIs (a0 a1 : Nat) (output input : Bytes) (bitLen : Nat) : Option Bytes := do
  let st ← addIsVec a0 a1 output input bitLen
  let st ← bitLoop 32 (XoodooArm.addWord input) (2 ^ 32) st.1 st.2
  let st ← bitLoop 8 (XoodooArm.addOne input) (2 ^ 32) st.1 st.2
  if st.2 = 0 then some st.1.st else XoodooArm.addBits input st.1 st.2

/-! ## The permutation -/

/-- `xoodoo_6_star` (s:1170-1206). -/
def sixStar (g : Regs) : Regs :=
  let g := round 0x00000060 g
  let g := round 0x0000002C g
  let g := round 0x00000380 g
  let g := round 0x000000F0 g
  let g := round 0x000001A0 g
  round 0x00000012 g

/-- `zip_x` (s:1265-1301). -/
def zipX (g : Regs) : Regs :=
  let (q4, q10) := vuzp g.q4 g.q10
  let (q7, q13) := vuzp g.q7 g.q13
  let (q4, q7) := vtrn q4 q7
  let (q10, q13) := vtrn q10 q13
  let (q5, q11) := vuzp g.q5 g.q11
  let (q8, q14) := vuzp g.q8 g.q14
  let (q5, q8) := vtrn q5 q8
  let (q11, q14) := vtrn q11 q14
  let (q6, q12) := vuzp g.q6 g.q12
  let (q9, q15) := vuzp g.q9 g.q15
  let (q6, q9) := vtrn q6 q9
  let (q12, q15) := vtrn q12 q15
  let q0 := q4
  let q4 := q5
  let q5 := q11
  let q11 := q15
  let q1 := q10
  let q10 := q9
  let q9 := q12
  let q2 := q7
  let q7 := q14
  let q3 := q13
  let (q6, q8) := (q8, q6)
  ⟨q0, q1, q2, q3, q4, q5, q6, q7, q8, q9, q10, q11, q12, q13, q14, q15⟩

/-- The moves that put words 1, 2, 3, 12 in `q3` and the state four steps further in `q0`, `q1`, `q2` (s:1335-1352, 1475-1492). -/
def spread (q0 q1 q2 q3 : Vec 4) (r4 r5 r6 r8 : Lane) : Vec 4 × Vec 4 × Vec 4 × Vec 4 :=
  let q3 := setS q3 0 (q0 1)
  let q3 := setS q3 1 (q0 2)
  let q3 := setS q3 2 (q0 3)
  let q3 := setS q3 3 r4
  let q0 := setS q0 0 (q1 1)
  let q0 := setS q0 1 (q1 2)
  let q0 := setS q0 2 (q1 3)
  let q0 := setS q0 3 r6
  let q1 := setS q1 0 (q2 1)
  let q1 := setS q1 1 (q2 2)
  let q1 := setS q1 2 (q2 3)
  let q1 := setS q1 3 r8
  let q2 := setS q2 0 (q3 1)
  let q2 := setS q2 1 (q3 2)
  let q2 := setD q2 1 r4 r5
  (q0, q1, q2, q3)

/-! ## `Xooffftimes4_CompressFastLoop` -/

/-- `focus_c` (s:1208-1263): four blocks of the input at `p`.  The path `unfocused` begins with `ldmia` at an address that is not a multiple of 4, which faults; it is never taken. -/
def focusC (base : Nat) (input : Bytes) (p : Nat) (g : Regs) : Option Regs :=
  if (base + p) % 4 = 0 then do
    let (q4, q5, q6) ← vldm3 base input p
    let (q7, q8, q9) ← vldm3 base input (p + 48)
    let (q10, q11, q12) ← vldm3 base input (p + 96)
    let (q13, q14, q15) ← vldm3 base input (p + 144)
    some ⟨g.q0, g.q1, g.q2, g.q3, q4, q5, q6, q7, q8, q9, q10, q11, q12, q13, q14, q15⟩
  else none

/-- The next four words of the mask, in `r4`, `r5`, `r6`, `r8` (s:1308-1322). -/
def seedC (q0 q1 q2 : Vec 4) : Lane × Lane × Lane × Lane :=
  let (r4, r5) := (q0 0, q0 1)
  let (r6, r7) := (q1 0, q1 1)
  let r8 := q2 0
  let r4 := r4 ^^^ r4 <<< 13
  let r4 := r4 ^^^ r6.rotateRight 29
  let r6 := r6 ^^^ r6 <<< 13
  let r6 := r6 ^^^ r8.rotateRight 29
  let r8 := r8 ^^^ r8 <<< 13
  let r8 := r8 ^^^ r5.rotateRight 29
  let r5 := r5 ^^^ r5 <<< 13
  let r5 := r5 ^^^ r7.rotateRight 29
  (r4, r5, r6, r8)

/-- `roll_zip_c` (s:1303-1368): the registers and the mask. -/
def rollZipC (g : Regs) (k : Bytes) : Option (Regs × Bytes) := do
  let (q0, q1, q2) ← vldm3 0 k 0
  let (r4, r5, r6, r8) := seedC q0 q1 q2
  let q4 := xor q0 g.q4
  let q5 := xor q1 g.q5
  let q7 := xor q1 g.q7
  let q6 := xor q2 g.q6
  let q8 := xor q2 g.q8
  let q10 := xor q2 g.q10
  let (q0, q1, q2, q3) := spread q0 q1 q2 g.q3 r4 r5 r6 r8
  let k ← vstm3 0 k 0 q0 q1 q2
  let q9 := xor q3 g.q9
  let q11 := xor q3 g.q11
  let q13 := xor q3 g.q13
  let q12 := xor q0 g.q12
  let q14 := xor q0 g.q14
  let q15 := xor q1 g.q15
  some (zipX ⟨q0, q1, q2, q3, q4, q5, q6, q7, q8, q9, q10, q11, q12, q13, q14, q15⟩, k)

/-- Two `vtrn` and two `vzip`: the words of the instances 0, 2, 1, 3 (s:1373-1376, 1383-1386, 1393-1396, 1518-1521, 1534-1537, 1545-1548). -/
def untr (a b c d : Vec 4) : Vec 4 × Vec 4 × Vec 4 × Vec 4 :=
  let (a, c) := vtrn a c
  let (b, d) := vtrn b d
  let (a, b) := vzip a b
  let (c, d) := vzip c d
  (a, b, c, d)

/-- The four words added to `acc` (s:1373-1381, 1383-1391, 1393-1401). -/
def fold4 (acc a b c d : Vec 4) : Vec 4 :=
  let (a, b, c, d) := untr a b c d
  let a := xor a b
  let c := xor c d
  let acc := xor acc a
  xor acc c

/-- `accumulate` (s:1370-1404): the accumulator.  The registers it changes are not used before they are loaded again. -/
def accumulate (g : Regs) (x : Bytes) : Option Bytes := do
  let (q12, q13, q14) ← vldm3 0 x 0
  let q12 := fold4 q12 g.q0 g.q1 g.q2 g.q3
  let q13 := fold4 q13 g.q4 g.q5 g.q6 g.q7
  let q14 := fold4 q14 g.q8 g.q9 g.q10 g.q11
  vstm3 0 x 0 q12 q13 q14

/-- The registers, the mask, the accumulator, the pointer `r2` to the input and the counter `r10`. -/
structure Cs where
  g : Regs
  (k x : Bytes)
  (r2 r10 : Nat)

/-- The body of `Xft4_CompressFast` (s:1421-1425). -/
def compressBody (base : Nat) (input : Bytes) (s : Cs) : Option Cs := do
  let g ← focusC base input s.r2 s.g
  let r2 := s.r2 + 192
  let (g, k) ← rollZipC g s.k
  let g := sixStar g
  let x ← accumulate g s.x
  some ⟨g, k, x, r2, s.r10 + 192⟩

/-- The loop `Xft4_CompressFast` (s:1420-1427) and the loop `Xft4_ExpandFast` (s:1578-1584): `subs r3, #192`, `bcs`. -/
def fastLoop {σ : Type} (body : σ → Option σ) : Nat → σ → Nat → Option σ
  | 0, _, _ => none
  | fuel + 1, s, r3 => do
    let s ← body s
    if r3 < 192 then some s else fastLoop body fuel s (r3 - 192)

/-- `Xooffftimes4_CompressFastLoop` (s:1410-1430): the mask, the accumulator and the return value; `base` is the address of the input. -/
def compressFastLoop (g : Regs) (base : Nat) (k x input : Bytes) (length : Nat) : Option (Bytes × Bytes × Nat) :=
  if base % 4 = 0 then do
    let s ← fastLoop (compressBody base input) (2 ^ 32) ⟨g, k, x, 0, 0⟩ (sub32 length 192)
    some (s.k, s.x, s.r10)
  else some (k, x, 0)

/-! ## `Xooffftimes4_ExpandFastLoop` -/

/-- The next four words of the accumulator, in `r4`, `r5`, `r6`, `r8` (s:1436-1461). -/
def seedE (q0 q1 q2 : Vec 4) : Lane × Lane × Lane × Lane :=
  let (r4, r5) := (q0 0, q0 1)
  let (r6, r7) := (q1 0, q1 1)
  let (r8, r9) := (q2 0, q2 1)
  let r10 := r6 &&& r8
  let r4 := r10 ^^^ r4.rotateRight 27
  let r4 := r4 ^^^ r6.rotateRight 19
  let r4 := r4 ^^^ 7
  let r10 := r8 &&& r5
  let r6 := r10 ^^^ r6.rotateRight 27
  let r6 := r6 ^^^ r8.rotateRight 19
  let r6 := r6 ^^^ 7
  let r10 := r5 &&& r7
  let r8 := r10 ^^^ r8.rotateRight 27
  let r8 := r8 ^^^ r5.rotateRight 19
  let r8 := r8 ^^^ 7
  let r10 := r7 &&& r9
  let r5 := r10 ^^^ r5.rotateRight 27
  let r5 := r5 ^^^ r7.rotateRight 19
  let r5 := r5 ^^^ 7
  (r4, r5, r6, r8)

/-- `roll_zip_e` (s:1432-1508): the registers and the accumulator. -/
def rollZipE (g : Regs) (y : Bytes) : Option (Regs × Bytes) := do
  let (q0, q1, q2) ← vldm3 0 y 0
  let (r4, r5, r6, r8) := seedE q0 q1 q2
  let q4 := q0
  let q5 := q1
  let q7 := q1
  let q6 := q2
  let q8 := q2
  let q10 := q2
  let (q0, q1, q2, q3) := spread q0 q1 q2 g.q3 r4 r5 r6 r8
  let y ← vstm3 0 y 0 q0 q1 q2
  let q9 := q3
  let q11 := q3
  let q13 := q3
  let q12 := q0
  let q14 := q0
  let q15 := q1
  some (zipX ⟨q0, q1, q2, q3, q4, q5, q6, q7, q8, q9, q10, q11, q12, q13, q14, q15⟩, y)

/-- `vstm r, {d0-d3}` and the like, for two registers `q`. -/
def vstm2 (base : Nat) (buf : Bytes) (a : Nat) (u v : Vec 4) : Option Bytes := do
  let buf ← vstm base buf a u
  vstm base buf (a + 16) v

/-- `sequentiate` (s:1510-1562): the output and the pointer `r2` to it.  The registers it changes are not used before they are loaded again. -/
def sequentiate (base : Nat) (g : Regs) (kRoll out : Bytes) (r2 : Nat) : Option (Bytes × Nat) := do
  let (q12, q13, q14) ← vldm3 0 kRoll 0
  let r4 := r2 + 48
  let r5 := r4 + 48
  let r6 := r5 + 48
  let (q0, q1, q2, q3) := untr g.q0 g.q1 g.q2 g.q3
  let q0 := xor q0 q12
  let q1 := xor q1 q12
  let q2 := xor q2 q12
  let q3 := xor q3 q12
  let out ← vstm base out r2 q0
  let r2 := r2 + 16
  let out ← vstm base out r4 q2
  let r4 := r4 + 16
  let out ← vstm base out r5 q1
  let r5 := r5 + 16
  let out ← vstm base out r6 q3
  let r6 := r6 + 16
  let (q4, q5, q6, q7) := untr g.q4 g.q5 g.q6 g.q7
  let q0 := xor q4 q13
  let q2 := xor q5 q13
  let q4 := xor q6 q13
  let q6 := xor q7 q13
  let (q8, q9, q10, q11) := untr g.q8 g.q9 g.q10 g.q11
  let q1 := xor q8 q14
  let q3 := xor q9 q14
  let q5 := xor q10 q14
  let q7 := xor q11 q14
  let out ← vstm2 base out r2 q0 q1
  let out ← vstm2 base out r4 q4 q5
  let out ← vstm2 base out r5 q2 q3
  let out ← vstm2 base out r6 q6 q7
  some (out, r6 + 32)

/-- The registers, the accumulator, the output, the pointer `r2` to it and the counter `r11`. -/
structure Es where
  g : Regs
  (y out : Bytes)
  (r2 r11 : Nat)

/-- The body of `Xft4_ExpandFast` (s:1579-1582). -/
def expandBody (base : Nat) (kRoll : Bytes) (s : Es) : Option Es := do
  let (g, y) ← rollZipE s.g s.y
  let g := sixStar g
  let (out, r2) ← sequentiate base g kRoll s.out s.r2
  some ⟨g, y, out, r2, s.r11 + 192⟩

/-- `Xooffftimes4_ExpandFastLoop` (s:1568-1587): the accumulator, the output and the return value; `base` is the address of the output. -/
def expandFastLoop (g : Regs) (base : Nat) (y kRoll output : Bytes) (length : Nat) : Option (Bytes × Bytes × Nat) :=
  if base % 4 = 0 then do
    let s ← fastLoop (expandBody base kRoll) (2 ^ 32) ⟨g, y, output, 0, 0⟩ (sub32 length 192)
    some (s.y, s.out, s.r11)
  else some (y, output, 0)

end XoodooTimes4Neon
