import Verif.Model.Interleaved32
import Verif.Model.PlSnPFallback
import Mathlib.Data.Fin.VecNotation

/-!
# Several Xoodoo in parallel

Models the functions on all states, and the permutations, of

* `lib/low/Xoodoo-times4/SSSE3/Xoodoo-times4-SIMD128.c` (cited as `x4`), also with `Waffel_useXOP`: 4 states in 128-bit registers;
* `lib/low/Xoodoo-times8/AVX2/Xoodoo-times8-SIMD256.c` (`x8`): 8 states in 256-bit registers;
* `lib/low/Xoodoo-times16/AVX512/Xoodoo-times16-SIMD512.c` (`x16`), `lib/low/Xoodoo-times8/AVX512/Xoodoo-times8-SIMD512.c` (`y8`) and
  `lib/low/Xoodoo-times4/AVX512/Xoodoo-times4-SIMD512.c` (`y4`): 16, 8 and 4 states with the AVX-512 instructions.  These three files have
  the same text up to the names of the macros for the width of the registers.

The functions on the bytes of one state are in `Model/Interleaved32.lean`; the functions for Xoofff are in `Model/XoofffSimd.lean`.

* The state is the list of the bytes of the array `A` of 12 registers of `N` 32-bit lanes.
* The round macros take the names of the variables to use for the lanes of planes 1 and 2; here the variables of a plane are indexed,
  and the macros take the indices.
* Data given to the lanes functions do not overlap the state; `input` and `output` are separate buffers.
* The headers have no permutation with 4 rounds, and no default one: see `impl`.
-/

namespace XoodooSimd

open Xoodoo (Lane)
open Simd32
open KeccakP1600 (put)
open PlSnPFallback (Par Perm)

variable {α : Type} {N : Nat}

/-- The operations on registers used by the macro `Round` of `x4` and `x8`. -/
structure Ops (α : Type) where
  xor : α → α → α
  /-- the first operand is complemented -/
  andnot : α → α → α
  rol : α → Nat → α
  rol8 : α → α
  const : Lane → α

/-- The operations on registers used by the macro `Round` of `x16`, `y8`, `y4`. -/
structure Ops512 (α : Type) where
  xor : α → α → α
  xor3 : α → α → α → α
  chi : α → α → α → α
  rol : α → Nat → α
  const : Lane → α

/-- The variables `a00, ..., a03`, `a10, ..., a13`, `a20, ..., a23` (x4:370-372, x8:446-448, x16:660-662). -/
structure Vars (α : Type) where
  a0 : Fin 4 → α
  a1 : Fin 4 → α
  a2 : Fin 4 → α

/-- The variables after a part of the macro `Round` that assigned these values to `a00`, ..., `a03`, to the variables `a1 (i 0)`, ...,
`a1 (i 3)` given for `a10i`, ... (or `a10w`, ...) and to the variables `a2 (j 0)`, ... given for `a20i`, ... -/
def Vars.assign (s : Vars α) (i j : Fin 4 → Fin 4) (a00 a01 a02 a03 a10 a11 a12 a13 a20 a21 a22 a23 : α) : Vars α :=
  ⟨![a00, a01, a02, a03], put (put (put (put s.a1 (i 0) a10) (i 1) a11) (i 2) a12) (i 3) a13,
    put (put (put (put s.a2 (j 0) a20) (j 1) a21) (j 2) a22) (j 3) a23⟩

/-! ### `Round` of `x4` and `x8` -/

/-- "Theta: Column Parity Mixer" (x4:389-409, x8:466-486). -/
def theta (O : Ops α) (i j : Fin 4 → Fin 4) (s : Vars α) : Vars α :=
  let a00 := s.a0 0
  let a01 := s.a0 1
  let a02 := s.a0 2
  let a03 := s.a0 3
  let a10i := s.a1 (i 0)
  let a11i := s.a1 (i 1)
  let a12i := s.a1 (i 2)
  let a13i := s.a1 (i 3)
  let a20i := s.a2 (j 0)
  let a21i := s.a2 (j 1)
  let a22i := s.a2 (j 2)
  let a23i := s.a2 (j 3)
  let v1 := O.xor a03 (O.xor a13i a23i)
  let v2 := O.xor a00 (O.xor a10i a20i)
  let v1 := O.xor (O.rol v1 5) (O.rol v1 14)
  let a00 := O.xor a00 v1
  let a10i := O.xor a10i v1
  let a20i := O.xor a20i v1
  let v1 := O.xor a01 (O.xor a11i a21i)
  let v2 := O.xor (O.rol v2 5) (O.rol v2 14)
  let a01 := O.xor a01 v2
  let a11i := O.xor a11i v2
  let a21i := O.xor a21i v2
  let v2 := O.xor a02 (O.xor a12i a22i)
  let v1 := O.xor (O.rol v1 5) (O.rol v1 14)
  let a02 := O.xor a02 v1
  let a12i := O.xor a12i v1
  let a22i := O.xor a22i v1
  let v2 := O.xor (O.rol v2 5) (O.rol v2 14)
  let a03 := O.xor a03 v2
  let a13i := O.xor a13i v2
  let a23i := O.xor a23i v2
  s.assign i j a00 a01 a02 a03 a10i a11i a12i a13i a20i a21i a22i a23i

/-- "Rho-west: Plane shift" (x4:412-416, x8:489-493). -/
def rhoWest (O : Ops α) (i j : Fin 4 → Fin 4) (s : Vars α) : Vars α :=
  let a00 := s.a0 0
  let a01 := s.a0 1
  let a02 := s.a0 2
  let a03 := s.a0 3
  let a10i := s.a1 (i 0)
  let a11i := s.a1 (i 1)
  let a12i := s.a1 (i 2)
  let a13i := s.a1 (i 3)
  let a20i := s.a2 (j 0)
  let a21i := s.a2 (j 1)
  let a22i := s.a2 (j 2)
  let a23i := s.a2 (j 3)
  let a20i := O.rol a20i 11
  let a21i := O.rol a21i 11
  let a22i := O.rol a22i 11
  let a23i := O.rol a23i 11
  s.assign i j a00 a01 a02 a03 a10i a11i a12i a13i a20i a21i a22i a23i

/-- "Iota: round constants" (x4:419, x8:496). -/
def iota (O : Ops α) (rc : Lane) (s : Vars α) : Vars α := { s with a0 := put s.a0 0 (O.xor (s.a0 0) (O.const rc)) }

/-- "Chi: non linear step, on colums" (x4:423-434, x8:500-511). -/
def chi (O : Ops α) (w j : Fin 4 → Fin 4) (s : Vars α) : Vars α :=
  let a00 := s.a0 0
  let a01 := s.a0 1
  let a02 := s.a0 2
  let a03 := s.a0 3
  let a10w := s.a1 (w 0)
  let a11w := s.a1 (w 1)
  let a12w := s.a1 (w 2)
  let a13w := s.a1 (w 3)
  let a20i := s.a2 (j 0)
  let a21i := s.a2 (j 1)
  let a22i := s.a2 (j 2)
  let a23i := s.a2 (j 3)
  let a00 := O.xor a00 (O.andnot a10w a20i)
  let a01 := O.xor a01 (O.andnot a11w a21i)
  let a02 := O.xor a02 (O.andnot a12w a22i)
  let a03 := O.xor a03 (O.andnot a13w a23i)
  let a10w := O.xor a10w (O.andnot a20i a00)
  let a11w := O.xor a11w (O.andnot a21i a01)
  let a12w := O.xor a12w (O.andnot a22i a02)
  let a13w := O.xor a13w (O.andnot a23i a03)
  let a20i := O.xor a20i (O.andnot a00 a10w)
  let a21i := O.xor a21i (O.andnot a01 a11w)
  let a22i := O.xor a22i (O.andnot a02 a12w)
  let a23i := O.xor a23i (O.andnot a03 a13w)
  s.assign w j a00 a01 a02 a03 a10w a11w a12w a13w a20i a21i a22i a23i

/-- "Rho-east: Plane shift" (x4:438-447, x8:515-523). -/
def rhoEast (O : Ops α) (w j : Fin 4 → Fin 4) (s : Vars α) : Vars α :=
  let a00 := s.a0 0
  let a01 := s.a0 1
  let a02 := s.a0 2
  let a03 := s.a0 3
  let a10w := s.a1 (w 0)
  let a11w := s.a1 (w 1)
  let a12w := s.a1 (w 2)
  let a13w := s.a1 (w 3)
  let a20i := s.a2 (j 0)
  let a21i := s.a2 (j 1)
  let a22i := s.a2 (j 2)
  let a23i := s.a2 (j 3)
  let a10w := O.rol a10w 1
  let a11w := O.rol a11w 1
  let a12w := O.rol a12w 1
  let a13w := O.rol a13w 1
  let a20i := O.rol8 a20i
  let a21i := O.rol8 a21i
  let a22i := O.rol8 a22i
  let a23i := O.rol8 a23i
  s.assign w j a00 a01 a02 a03 a10w a11w a12w a13w a20i a21i a22i a23i

/-- `Round(a10i, ..., a10w, ..., a20i, ..., __rc)` (x4:386-448, x8:463-524). -/
def round (O : Ops α) (i w j : Fin 4 → Fin 4) (rc : Lane) (s : Vars α) : Vars α :=
  rhoEast O w j (chi O w j (iota O rc (rhoWest O i j (theta O i j s))))

/-! ### `Round` of `x16`, `y8` and `y4` -/

/-- "Theta: Column Parity Mixer", with "Iota: round constants" (x16:681-700). -/
def thetaIota (O : Ops512 α) (i j : Fin 4 → Fin 4) (rc : Lane) (s : Vars α) : Vars α :=
  let a00 := s.a0 0
  let a01 := s.a0 1
  let a02 := s.a0 2
  let a03 := s.a0 3
  let a10i := s.a1 (i 0)
  let a11i := s.a1 (i 1)
  let a12i := s.a1 (i 2)
  let a13i := s.a1 (i 3)
  let a20i := s.a2 (j 0)
  let a21i := s.a2 (j 1)
  let a22i := s.a2 (j 2)
  let a23i := s.a2 (j 3)
  let v1 := O.xor3 a03 a13i a23i
  let v2 := O.xor3 a00 a10i a20i
  let v1 := O.xor (O.rol v1 5) (O.rol v1 14)
  let a00 := O.xor3 a00 v1 (O.const rc)
  let a10i := O.xor a10i v1
  let a20i := O.xor a20i v1
  let v1 := O.xor3 a01 a11i a21i
  let v2 := O.xor (O.rol v2 5) (O.rol v2 14)
  let a01 := O.xor a01 v2
  let a11i := O.xor a11i v2
  let a21i := O.xor a21i v2
  let v2 := O.xor3 a02 a12i a22i
  let v1 := O.xor (O.rol v1 5) (O.rol v1 14)
  let a02 := O.xor a02 v1
  let a12i := O.xor a12i v1
  let a22i := O.xor a22i v1
  let v2 := O.xor (O.rol v2 5) (O.rol v2 14)
  let a03 := O.xor a03 v2
  let a13i := O.xor a13i v2
  let a23i := O.xor a23i v2
  s.assign i j a00 a01 a02 a03 a10i a11i a12i a13i a20i a21i a22i a23i

/-- "Rho-west: Plane shift" (x16:703-707). -/
def rhoWest512 (O : Ops512 α) (i j : Fin 4 → Fin 4) (s : Vars α) : Vars α :=
  let a00 := s.a0 0
  let a01 := s.a0 1
  let a02 := s.a0 2
  let a03 := s.a0 3
  let a10i := s.a1 (i 0)
  let a11i := s.a1 (i 1)
  let a12i := s.a1 (i 2)
  let a13i := s.a1 (i 3)
  let a20i := s.a2 (j 0)
  let a21i := s.a2 (j 1)
  let a22i := s.a2 (j 2)
  let a23i := s.a2 (j 3)
  let a20i := O.rol a20i 11
  let a21i := O.rol a21i 11
  let a22i := O.rol a22i 11
  let a23i := O.rol a23i 11
  s.assign i j a00 a01 a02 a03 a10i a11i a12i a13i a20i a21i a22i a23i

/-- "Chi: non linear step, on colums" (x16:710-721). -/
def chi512 (O : Ops512 α) (w j : Fin 4 → Fin 4) (s : Vars α) : Vars α :=
  let a00 := s.a0 0
  let a01 := s.a0 1
  let a02 := s.a0 2
  let a03 := s.a0 3
  let a10w := s.a1 (w 0)
  let a11w := s.a1 (w 1)
  let a12w := s.a1 (w 2)
  let a13w := s.a1 (w 3)
  let a20i := s.a2 (j 0)
  let a21i := s.a2 (j 1)
  let a22i := s.a2 (j 2)
  let a23i := s.a2 (j 3)
  let a00 := O.chi a00 a10w a20i
  let a01 := O.chi a01 a11w a21i
  let a02 := O.chi a02 a12w a22i
  let a03 := O.chi a03 a13w a23i
  let a10w := O.chi a10w a20i a00
  let a11w := O.chi a11w a21i a01
  let a12w := O.chi a12w a22i a02
  let a13w := O.chi a13w a23i a03
  let a20i := O.chi a20i a00 a10w
  let a21i := O.chi a21i a01 a11w
  let a22i := O.chi a22i a02 a12w
  let a23i := O.chi a23i a03 a13w
  s.assign w j a00 a01 a02 a03 a10w a11w a12w a13w a20i a21i a22i a23i

/-- "Rho-east: Plane shift" (x16:725-733). -/
def rhoEast512 (O : Ops512 α) (w j : Fin 4 → Fin 4) (s : Vars α) : Vars α :=
  let a00 := s.a0 0
  let a01 := s.a0 1
  let a02 := s.a0 2
  let a03 := s.a0 3
  let a10w := s.a1 (w 0)
  let a11w := s.a1 (w 1)
  let a12w := s.a1 (w 2)
  let a13w := s.a1 (w 3)
  let a20i := s.a2 (j 0)
  let a21i := s.a2 (j 1)
  let a22i := s.a2 (j 2)
  let a23i := s.a2 (j 3)
  let a10w := O.rol a10w 1
  let a11w := O.rol a11w 1
  let a12w := O.rol a12w 1
  let a13w := O.rol a13w 1
  let a20i := O.rol a20i 8
  let a21i := O.rol a21i 8
  let a22i := O.rol a22i 8
  let a23i := O.rol a23i 8
  s.assign w j a00 a01 a02 a03 a10w a11w a12w a13w a20i a21i a22i a23i

/-- `Round(a10i, ..., a10w, ..., a20i, ..., __rc)` (x16:677-734, y8:846-903, y4:826-883). -/
def round512 (O : Ops512 α) (i w j : Fin 4 → Fin 4) (rc : Lane) (s : Vars α) : Vars α :=
  rhoEast512 O w j (chi512 O w j (rhoWest512 O i j (thetaIota O i j rc s)))

/-! ### The permutations -/

/-- The calls of `Round` in `PermuteAll_6rounds` (x4:456-461, x8:532-537, x16:742-747, y8:911-916, y4:891-896), with the constants of Xoodoo.h:35-40. -/
def rounds6 (R : (Fin 4 → Fin 4) → (Fin 4 → Fin 4) → (Fin 4 → Fin 4) → Lane → Vars α → Vars α) (s : Vars α) : Vars α :=
  let s := R ![2, 3, 0, 1] ![1, 2, 3, 0] ![0, 1, 2, 3] 0x00000060 s
  let s := R ![1, 2, 3, 0] ![0, 1, 2, 3] ![2, 3, 0, 1] 0x0000002C s
  let s := R ![0, 1, 2, 3] ![3, 0, 1, 2] ![0, 1, 2, 3] 0x00000380 s
  let s := R ![3, 0, 1, 2] ![2, 3, 0, 1] ![2, 3, 0, 1] 0x000000F0 s
  let s := R ![2, 3, 0, 1] ![1, 2, 3, 0] ![0, 1, 2, 3] 0x000001A0 s
  let s := R ![1, 2, 3, 0] ![0, 1, 2, 3] ![2, 3, 0, 1] 0x00000012 s
  s

/-- The calls of `Round` in `PermuteAll_12rounds` (x4:472-483, x8:548-559, x16:758-769, y8:927-938, y4:907-918), with the constants of
Xoodoo.h:29-40. -/
def rounds12 (R : (Fin 4 → Fin 4) → (Fin 4 → Fin 4) → (Fin 4 → Fin 4) → Lane → Vars α → Vars α) (s : Vars α) : Vars α :=
  let s := R ![0, 1, 2, 3] ![3, 0, 1, 2] ![0, 1, 2, 3] 0x00000058 s
  let s := R ![3, 0, 1, 2] ![2, 3, 0, 1] ![2, 3, 0, 1] 0x00000038 s
  let s := R ![2, 3, 0, 1] ![1, 2, 3, 0] ![0, 1, 2, 3] 0x000003C0 s
  let s := R ![1, 2, 3, 0] ![0, 1, 2, 3] ![2, 3, 0, 1] 0x000000D0 s
  let s := R ![0, 1, 2, 3] ![3, 0, 1, 2] ![0, 1, 2, 3] 0x00000120 s
  let s := R ![3, 0, 1, 2] ![2, 3, 0, 1] ![2, 3, 0, 1] 0x00000014 s
  let s := R ![2, 3, 0, 1] ![1, 2, 3, 0] ![0, 1, 2, 3] 0x00000060 s
  let s := R ![1, 2, 3, 0] ![0, 1, 2, 3] ![2, 3, 0, 1] 0x0000002C s
  let s := R ![0, 1, 2, 3] ![3, 0, 1, 2] ![0, 1, 2, 3] 0x00000380 s
  let s := R ![3, 0, 1, 2] ![2, 3, 0, 1] ![2, 3, 0, 1] 0x000000F0 s
  let s := R ![2, 3, 0, 1] ![1, 2, 3, 0] ![0, 1, 2, 3] 0x000001A0 s
  let s := R ![1, 2, 3, 0] ![0, 1, 2, 3] ![2, 3, 0, 1] 0x00000012 s
  s

/-- Register `p` of the array `A`. -/
def reg (N : Nat) (mem : Bytes) (p : Nat) : Option (Vec N) := loadVec N mem (4 * N * p)

/-- `State2Vars` (x4:375-377, x8:456-458, x16:669-671). -/
def state2Vars (mem : Bytes) : Option (Vars (Vec N)) := do
  let x0 ← reg N mem 0
  let x1 ← reg N mem 1
  let x2 ← reg N mem 2
  let x3 ← reg N mem 3
  let x4 ← reg N mem 4
  let x5 ← reg N mem 5
  let x6 ← reg N mem 6
  let x7 ← reg N mem 7
  let x8 ← reg N mem 8
  let x9 ← reg N mem 9
  let x10 ← reg N mem 10
  let x11 ← reg N mem 11
  some ⟨![x0, x1, x2, x3], ![x4, x5, x6, x7], ![x8, x9, x10, x11]⟩

/-- `State2Vars2` (x4:379-381, x8:452-454, x16:665-667): `a12 = states[4]`, `a13 = states[5]`, `a10 = states[6]`, `a11 = states[7]`. -/
def state2Vars2 (mem : Bytes) : Option (Vars (Vec N)) := do
  let x0 ← reg N mem 0
  let x1 ← reg N mem 1
  let x2 ← reg N mem 2
  let x3 ← reg N mem 3
  let x4 ← reg N mem 4
  let x5 ← reg N mem 5
  let x6 ← reg N mem 6
  let x7 ← reg N mem 7
  let x8 ← reg N mem 8
  let x9 ← reg N mem 9
  let x10 ← reg N mem 10
  let x11 ← reg N mem 11
  some ⟨![x0, x1, x2, x3], ![x6, x7, x4, x5], ![x8, x9, x10, x11]⟩

/-- The variable stored in `states[p]` by `Vars2State`. -/
def Vars.get (s : Vars α) (p : Nat) : α :=
  match p with
  | 0 => s.a0 0 | 1 => s.a0 1 | 2 => s.a0 2 | 3 => s.a0 3
  | 4 => s.a1 0 | 5 => s.a1 1 | 6 => s.a1 2 | 7 => s.a1 3
  | 8 => s.a2 0 | 9 => s.a2 1 | 10 => s.a2 2 | _ => s.a2 3

/-- `Vars2State` (x4:383-385, x8:460-462, x16:673-675). -/
def vars2State (mem : Bytes) (s : Vars (Vec N)) : Option Bytes :=
  seq (fun p mem => storeVec mem (4 * N * p) (s.get p)) [0, 1, 2, 3, 4, 5, 6, 7, 8, 9, 10, 11] mem

/-- `PermuteAll_6rounds` (x4:450-464, x8:526-540, x16:736-750, y8:905-919, y4:885-899). -/
def permute6 (R : (Fin 4 → Fin 4) → (Fin 4 → Fin 4) → (Fin 4 → Fin 4) → Lane → Vars (Vec N) → Vars (Vec N)) (mem : Bytes) :
    Option Bytes := do
  let s ← state2Vars2 mem
  vars2State mem (rounds6 R s)

/-- `PermuteAll_12rounds` (x4:466-486, x8:542-562, x16:752-772, y8:921-941, y4:901-921). -/
def permute12 (R : (Fin 4 → Fin 4) → (Fin 4 → Fin 4) → (Fin 4 → Fin 4) → Lane → Vars (Vec N) → Vars (Vec N)) (mem : Bytes) :
    Option Bytes := do
  let s ← state2Vars mem
  vars2State mem (rounds12 R s)

/-! ### The functions on lanes of all states -/

/-- `if ( laneCount == 12 ) { f(0); ... f(11); } else for(i=0; i<laneCount; i++) f(i);`: the common structure of the lanes functions
(x4:132-150, for instance). -/
def overLanes {σ : Type} (f : Nat → σ → Option σ) (laneCount : Nat) (s : σ) : Option σ :=
  if laneCount = 12 then seq f [0, 1, 2, 3, 4, 5, 6, 7, 8, 9, 10, 11] s else forTo f 0 laneCount s

/-- `data+laneOffset*k*SnP_laneLengthInBytes`, as an offset in bytes computed in `unsigned int` (x4:127-130, x8:164-171). -/
def ptr (laneOffset k : Nat) : Nat := laneOffset * k * 4 % 2 ^ 32

/-- `LOAD4_32(curData0[p], ..., curData3[p])`, `LOAD8_32(curData0[p], ..., curData7[p])` (x4:131, x8:173). -/
def loadPtrs (N : Nat) (data : Bytes) (laneOffset p : Nat) : Option (Vec N) := do
  let ws ← (List.range N).mapM fun k => loadWord data (ptr laneOffset k + 4 * p)
  some (ofList N ws)

/-- `XOReq128(stateAsLanes[p], v)`, `XOReq256(...)`, `stateAsLanes[p] = XOR(stateAsLanes[p], v)`. -/
def xorReg (mem : Bytes) (p : Nat) (v : Vec N) : Option Bytes := do
  let a ← reg N mem p
  storeVec mem (4 * N * p) (Simd32.xor a v)

/-- `AddLanesAll` (x4:123-151, x8:160-194). -/
def addLanesAll (N : Nat) (mem data : Bytes) (laneCount laneOffset : Nat) : Option Bytes :=
  overLanes (fun p mem => do
    let v ← loadPtrs N data laneOffset p
    xorReg mem p v) laneCount mem

/-- `OverwriteLanesAll` (x4:184-212, x8:227-261). -/
def overwriteLanesAll (N : Nat) (mem data : Bytes) (laneCount laneOffset : Nat) : Option Bytes :=
  overLanes (fun p mem => do
    let v ← loadPtrs N data laneOffset p
    storeVec mem (4 * N * p) v) laneCount mem

/-- `Extr(p)` of `x4`: the register is loaded, and its lanes stored with `STORE4_32` (x4:270-271; the macro: x4:48-52). -/
def extr4 (mem : Bytes) (laneOffset p : Nat) (out : Bytes) : Option Bytes := do
  let lanes ← reg 4 mem p
  (List.range 4).foldlM (fun out k => storeWord out (ptr laneOffset k + 4 * p) (extractEpi32 lanes k)) out

/-- `Extr(p)` of `x8`: `curData0[p] = stateAsLanes32[8*p]`, ... (x8:323-330). -/
def extr8 (mem : Bytes) (laneOffset p : Nat) (out : Bytes) : Option Bytes :=
  (List.range 8).foldlM (fun out k => do
    let w ← loadWord mem (4 * (8 * p + k))
    storeWord out (ptr laneOffset k + 4 * p) w) out

/-- `ExtractLanesAll` of `x4` (x4:260-292). -/
def extractLanesAll4 (mem out : Bytes) (laneCount laneOffset : Nat) : Option Bytes :=
  overLanes (extr4 mem laneOffset) laneCount out

/-- `ExtractLanesAll` of `x8` (x8:310-351). -/
def extractLanesAll8 (mem out : Bytes) (laneCount laneOffset : Nat) : Option Bytes :=
  overLanes (extr8 mem laneOffset) laneCount out

/-- `ExtrXOR(p)`: `curOutput0[p] = curInput0[p] ^ stateAsLanes[N*p]`, ... (x4:346-347, x8:416-424). -/
def extrXor (N : Nat) (mem input : Bytes) (laneOffset p : Nat) (out : Bytes) : Option Bytes :=
  (List.range N).foldlM (fun out k => do
    let x ← loadWord input (ptr laneOffset k + 4 * p)
    let w ← loadWord mem (4 * (N * p + k))
    storeWord out (ptr laneOffset k + 4 * p) (x ^^^ w)) out

/-- `ExtractAndAddLanesAll` (x4:333-368, x8:392-444). -/
def extractAndAddLanesAll (N : Nat) (mem input out : Bytes) (laneCount laneOffset : Nat) : Option Bytes :=
  overLanes (extrXor N mem input laneOffset) laneCount out

/-- `V512 offsets = SET16_32(0*laneOffset, 1*laneOffset, ...)` (x16:423-424, y8:595, y4:575), in `unsigned int`. -/
def offsets (N laneOffset : Nat) : Vec N := fun l => BitVec.ofNat 32 (l.val * laneOffset)

/-- `AddLanesAll` (x16:418-447, y8:590-618, y4:570-598). -/
def addLanesAll512 (N : Nat) (mem data : Bytes) (laneCount laneOffset : Nat) : Option Bytes :=
  overLanes (fun p mem => do
    let v ← gather data (4 * p) (offsets N laneOffset)
    xorReg mem p v) laneCount mem

/-- `OverwriteLanesAll` (x16:480-509, y8:651-679, y4:631-659). -/
def overwriteLanesAll512 (N : Nat) (mem data : Bytes) (laneCount laneOffset : Nat) : Option Bytes :=
  overLanes (fun p mem => do
    let v ← gather data (4 * p) (offsets N laneOffset)
    storeVec mem (4 * N * p) v) laneCount mem

/-- `ExtractLanesAll` (x16:558-587, y8:728-756, y4:708-736). -/
def extractLanesAll512 (N : Nat) (mem out : Bytes) (laneCount laneOffset : Nat) : Option Bytes :=
  overLanes (fun p out => do
    let a ← reg N mem p
    scatter (2 ^ N - 1) out (4 * p) (offsets N laneOffset) a) laneCount out

/-- `ExtractAndAddLanesAll` (x16:628-658, y8:797-827, y4:777-807). -/
def extractAndAddLanesAll512 (N : Nat) (mem input out : Bytes) (laneCount laneOffset : Nat) : Option Bytes :=
  overLanes (fun p out => do
    let a ← reg N mem p
    let v ← gather input (4 * p) (offsets N laneOffset)
    scatter (2 ^ N - 1) out (4 * p) (offsets N laneOffset) (Simd32.xor a v)) laneCount out

/-! ### The implementations -/

/-- `ROL32in128(a, o)`, `ROL32in256(a, o)` without the rotation instruction (x4:42, x8:54). -/
def rolOr (a : Vec N) (o : Nat) : Vec N := Simd32.or (slli a o) (srli a (32 - o))

/-- The operations of `x4` without `Waffel_useXOP` (x4:35, 42, 54; x4:419 for the constants). -/
def ops4 : Ops (Vec 4) := ⟨Simd32.xor, andnot, rolOr, fun a => rolOr a 8, set1⟩

/-- The operations of `x4` with `Waffel_useXOP` (x4:39). -/
def ops4xop : Ops (Vec 4) := ⟨Simd32.xor, andnot, roti, fun a => roti a 8, set1⟩

/-- `rho8` (x8:450). -/
def rho8 : Vec 8 :=
  ofList 8 [0x02010003, 0x06050407, 0x0A09080B, 0x0E0D0C0F, 0x12111013, 0x16151417, 0x1A19181B, 0x1E1D1C1F]

/-- The operations of `x8` (x8:39-40, 54-55, 63). -/
def ops8 : Ops (Vec 8) := ⟨Simd32.xor, andnot, rolOr, fun a => shuffleEpi8 a rho8, set1⟩

/-- The operations of `x16`, `y8` and `y4` (x16:249-251, 262, 274-275; y8:427-429, 442, 456-458; y4:427-429, 442, 456-459). -/
def ops512 : Ops512 (Vec N) :=
  ⟨Simd32.xor, fun a b c => ternarylogic a b c 0x96, fun a b c => ternarylogic a b c 0xD2, roti, set1⟩

/-- `PermuteAll_6rounds` for `.r6`, `PermuteAll_12rounds` for `.r12`.  The headers have nothing for the other two, which stand here for 12 rounds. -/
def permuteAll (R : (Fin 4 → Fin 4) → (Fin 4 → Fin 4) → (Fin 4 → Fin 4) → Lane → Vars (Vec N) → Vars (Vec N)) (p : Perm) (mem : Bytes) :
    Option Bytes :=
  match p with
  | .r6 => permute6 R mem
  | _ => permute12 R mem

/-- The implementation with `N` states whose lanes functions and macro `Round` are given; the byte functions are those of
`Model/Interleaved32.lean`.  The alignment is the one of the headers (the type of the states: SnP.h:26-28 in each directory).
-/
def implOf (N align : Nat)
    (R : (Fin 4 → Fin 4) → (Fin 4 → Fin 4) → (Fin 4 → Fin 4) → Lane → Vars (Vec N) → Vars (Vec N))
    (addLanes overwriteLanes extractLanes : Bytes → Bytes → Nat → Nat → Option Bytes)
    (extractAndAddLanes : Bytes → Bytes → Bytes → Nat → Nat → Option Bytes) : Par where
  par := N
  size := 48 * N
  align := align
  lane := 4
  initAll := Interleaved32.initAll
  addByte := Interleaved32.addByte N
  addBytes := Interleaved32.addBytes N
  addLanesAll := addLanes
  overwriteBytes := Interleaved32.overwriteBytes N
  overwriteLanesAll := overwriteLanes
  overwriteWithZeroes := Interleaved32.overwriteWithZeroes N
  permuteAll := permuteAll R
  extractBytes := Interleaved32.extractBytes N
  extractLanesAll := extractLanes
  extractAndAddBytes := Interleaved32.extractAndAddBytes N
  extractAndAddLanesAll := extractAndAddLanes

/-- The implementation of `Xoodoo-times4/SSSE3`, with or without `Waffel_useXOP`. -/
def times4 (xop : Bool) : Par :=
  implOf 4 16 (round (if xop then ops4xop else ops4)) (addLanesAll 4) (overwriteLanesAll 4) extractLanesAll4 (extractAndAddLanesAll 4)

/-- The implementation of `Xoodoo-times8/AVX2`. -/
def times8 : Par :=
  implOf 8 32 (round ops8) (addLanesAll 8) (overwriteLanesAll 8) extractLanesAll8 (extractAndAddLanesAll 8)

/-- The implementations of `Xoodoo-times16/AVX512`, `Xoodoo-times8/AVX512` and `Xoodoo-times4/AVX512`. -/
def avx512 (N : Nat) : Par :=
  implOf N (4 * N) (round512 ops512) (addLanesAll512 N) (overwriteLanesAll512 N) (extractLanesAll512 N) (extractAndAddLanesAll512 N)

end XoodooSimd
