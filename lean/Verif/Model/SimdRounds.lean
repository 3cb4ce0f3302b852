import Verif.Model.Simd
import Verif.Model.KeccakP1600Opt

/-!
# The round loops of the SIMD implementations

The 128-bit and the 256-bit SIMD implementations of several parallel Keccak-p[1600] are written with the same macros as the
optimised 64-bit implementation, the variables being registers.  This file contains what they share: the variables, the loops of
`lib/low/KeccakP-1600/common/KeccakP-1600-unrolling.macros` (see also `Model/KeccakP1600Opt.lean`), and the macros
`copyFromState` and `copyToState`, which have the same text in the two files.  The operations on registers are a parameter (`Ops`).
-/

namespace Simd

open KeccakP1600 (Lane)
open KeccakP1600.Opt64 (Unrolling)

/-- The local variables `Aba ... Asu` (or `Eba ... Esu`) of `declareABCDE` (KeccakP-1600-times2-SIMD128.c:453-470,
KeccakP-1600-times4-SIMD256.c:447-465). -/
structure V (α : Type) where
  (ba be bi bo bu : α)
  (ga ge gi go gu : α)
  (ka ke ki ko ku : α)
  (ma me mi mo mu : α)
  (sa se si so su : α)

/-- The local variables `Ca ... Cu` (KeccakP-1600-times2-SIMD128.c:464, KeccakP-1600-times4-SIMD256.c:458). -/
structure C5 (α : Type) where
  (a e i o u : α)

/-- The macros on registers used in the rounds: `XOR128`, `ANDnu128`, `ROL64in128`, `ROL64in128_8`, `ROL64in128_56`,
`CONST128_64` (KeccakP-1600-times2-SIMD128.c:43-72), and the same with 256 (KeccakP-1600-times4-SIMD256.c:42-58). -/
structure Ops (α : Type) where
  xor : α → α → α
  andnot : α → α → α
  rol : α → Nat → α
  rol8 : α → α
  rol56 : α → α
  const : Lane → α

/-- The macros `prepareTheta`, `thetaRhoPiChiIotaPrepareTheta` and `thetaRhoPiChiIota` of an implementation; the number is
the round. -/
structure Rounds (α : Type) where
  prepareTheta : V α → C5 α
  roundPrep : Nat → V α → C5 α → V α × V α × C5 α
  round : Nat → V α → C5 α → V α × V α

/-- The local variables of the functions. -/
structure St (α : Type) where
  A : V α
  E : V α
  c : C5 α

variable {α : Type} (R : Rounds α)

/-- `prepareTheta`. -/
def prep (s : St α) : St α := { s with c := R.prepareTheta s.A }

/-- `thetaRhoPiChiIotaPrepareTheta(i, A, E)`. -/
def AE (i : Nat) (s : St α) : St α :=
  let r := R.roundPrep i s.A s.c
  ⟨r.1, r.2.1, r.2.2⟩

/-- `thetaRhoPiChiIotaPrepareTheta(i, E, A)`. -/
def EA (i : Nat) (s : St α) : St α :=
  let r := R.roundPrep i s.E s.c
  ⟨r.2.1, r.1, r.2.2⟩

/-- `thetaRhoPiChiIota(i, E, A)`. -/
def lastEA (i : Nat) (s : St α) : St α :=
  let r := R.round i s.E s.c
  ⟨r.2, r.1, s.c⟩

/-- `copyStateVariables(A, E)` (KeccakP-1600-times2-SIMD128.c:766-791, KeccakP-1600-times4-SIMD256.c:771-796). -/
def copyAE (s : St α) : St α := { s with A := s.E }

/-- `for(; i<24; i+=step) body(i)`; the fuel 24 is always enough for `step > 0`. -/
def forLoop (step : Nat) (body : Nat → St α → St α) : Nat → Nat → St α → St α
  | 0, _, s => s
  | fuel + 1, i, s => if i < 24 then forLoop step body fuel (i + step) (body i s) else s

/-- Two rounds of an unrolled body. -/
def two (i : Nat) (s : St α) : St α := EA R (i + 1) (AE R i s)

/-- The two last rounds when they are written out. -/
def lastTwo (i : Nat) (s : St α) : St α := lastEA R (i + 1) (AE R i s)

/-- `rounds24` (KeccakP-1600-unrolling.macros:18-43, 77-92, 126-135, 165-172, 198-205, 233-238, 262-267). -/
def rounds24 (unr : Unrolling) (s : St α) : St α :=
  let s := prep R s
  match unr with
  | .full => lastTwo R 22 <| two R 20 <| two R 18 <| two R 16 <| two R 14 <| two R 12 <| two R 10 <| two R 8 <| two R 6 <|
      two R 4 <| two R 2 <| two R 0 s
  | .u12 => forLoop 12 (fun i s => two R (i + 10) <| two R (i + 8) <| two R (i + 6) <| two R (i + 4) <|
      two R (i + 2) <| two R i s) 24 0 s
  | .u6 => forLoop 6 (fun i s => two R (i + 4) <| two R (i + 2) <| two R i s) 24 0 s
  | .u4 => forLoop 4 (fun i s => two R (i + 2) <| two R i s) 24 0 s
  | .u3 => forLoop 3 (fun i s => copyAE <| AE R (i + 2) <| two R i s) 24 0 s
  | .u2 => forLoop 2 (fun i s => two R i s) 24 0 s
  | .u1 => forLoop 1 (fun i s => copyAE <| AE R i s) 24 0 s

/-- `rounds12` (KeccakP-1600-unrolling.macros:45-58, 94-107, 137-146, 174-181, 207-214, 240-245, 269-274). -/
def rounds12 (unr : Unrolling) (s : St α) : St α :=
  let s := prep R s
  match unr with
  | .full => lastTwo R 22 <| two R 20 <| two R 18 <| two R 16 <| two R 14 <| two R 12 s
  | .u12 => lastTwo R 22 <| two R 20 <| two R 18 <| two R 16 <| two R 14 <| two R 12 s
  | .u6 => forLoop 6 (fun i s => two R (i + 4) <| two R (i + 2) <| two R i s) 24 12 s
  | .u4 => forLoop 4 (fun i s => two R (i + 2) <| two R i s) 24 12 s
  | .u3 => forLoop 3 (fun i s => copyAE <| AE R (i + 2) <| two R i s) 24 12 s
  | .u2 => forLoop 2 (fun i s => two R i s) 24 12 s
  | .u1 => forLoop 1 (fun i s => copyAE <| AE R i s) 24 12 s

/-- `rounds6` (KeccakP-1600-unrolling.macros:60-67, 109-116, 148-155, 183-188, 216-223, 247-252, 276-281). -/
def rounds6 (unr : Unrolling) (s : St α) : St α :=
  let s := prep R s
  match unr with
  | .full => lastTwo R 22 <| two R 20 <| two R 18 s
  | .u12 => lastTwo R 22 <| two R 20 <| two R 18 s
  | .u6 => lastTwo R 22 <| two R 20 <| two R 18 s
  | .u4 => forLoop 2 (fun i s => two R i s) 24 18 s
  | .u3 => forLoop 3 (fun i s => copyAE <| AE R (i + 2) <| two R i s) 24 18 s
  | .u2 => forLoop 2 (fun i s => two R i s) 24 18 s
  | .u1 => forLoop 1 (fun i s => copyAE <| AE R i s) 24 18 s

/-- `rounds4` (KeccakP-1600-unrolling.macros:69-74, 118-123, 157-162, 190-195, 225-230, 254-259, 283-288). -/
def rounds4 (unr : Unrolling) (s : St α) : St α :=
  let s := prep R s
  match unr with
  | .full => lastTwo R 22 <| two R 20 s
  | .u12 => lastTwo R 22 <| two R 20 s
  | .u6 => lastTwo R 22 <| two R 20 s
  | .u4 => lastTwo R 22 <| two R 20 s
  | .u3 => forLoop 2 (fun i s => two R i s) 24 20 s
  | .u2 => forLoop 2 (fun i s => two R i s) 24 20 s
  | .u1 => forLoop 1 (fun i s => copyAE <| AE R i s) 24 20 s

/-- The variable the macros `copyFromState` and `copyToState` associate with `state[p]`. -/
def V.get (A : V α) (p : Nat) : α :=
  match p with
  | 0 => A.ba | 1 => A.be | 2 => A.bi | 3 => A.bo | 4 => A.bu
  | 5 => A.ga | 6 => A.ge | 7 => A.gi | 8 => A.go | 9 => A.gu
  | 10 => A.ka | 11 => A.ke | 12 => A.ki | 13 => A.ko | 14 => A.ku
  | 15 => A.ma | 16 => A.me | 17 => A.mi | 18 => A.mo | 19 => A.mu
  | 20 => A.sa | 21 => A.se | 22 => A.si | 23 => A.so | _ => A.su

/-- The variables set to what `f` gives for `state[0], ..., state[24]`, as in `copyFromState`. -/
def V.ofState (f : Nat → Option α) : Option (V α) := do
  let ba ← f 0
  let be ← f 1
  let bi ← f 2
  let bo ← f 3
  let bu ← f 4
  let ga ← f 5
  let ge ← f 6
  let gi ← f 7
  let go ← f 8
  let gu ← f 9
  let ka ← f 10
  let ke ← f 11
  let ki ← f 12
  let ko ← f 13
  let ku ← f 14
  let ma ← f 15
  let me ← f 16
  let mi ← f 17
  let mo ← f 18
  let mu ← f 19
  let sa ← f 20
  let se ← f 21
  let si ← f 22
  let so ← f 23
  let su ← f 24
  some ⟨ba, be, bi, bo, bu, ga, ge, gi, go, gu, ka, ke, ki, ko, ku, ma, me, mi, mo, mu, sa, se, si, so, su⟩

/-- `copyFromState(X, state)` (KeccakP-1600-times2-SIMD128.c:712-737, KeccakP-1600-times4-SIMD256.c:717-742). -/
def copyFromState (n : Nat) (mem : Bytes) : Option (V (Vec n)) := V.ofState fun p => loadVec n mem (8 * n * p)

/-- `copyToState(state, X)` (KeccakP-1600-times2-SIMD128.c:739-764, KeccakP-1600-times4-SIMD256.c:744-769). -/
def copyToState {n : Nat} (mem : Bytes) (A : V (Vec n)) : Option Bytes :=
  seq (fun p mem => storeVec mem (8 * n * p) (A.get p))
    [0, 1, 2, 3, 4, 5, 6, 7, 8, 9, 10, 11, 12, 13, 14, 15, 16, 17, 18, 19, 20, 21, 22, 23, 24] mem

/-- A `PermuteAll_*` function (KeccakP-1600-times2-SIMD128.c:800-862, KeccakP-1600-times4-SIMD256.c:805-855); `rounds` is the macro
for the number of rounds, `E0` and `C0` are the uninitialised variables. -/
def permute {n : Nat} (rounds : St (Vec n) → St (Vec n)) (E0 : V (Vec n)) (C0 : C5 (Vec n)) (mem : Bytes) : Option Bytes := do
  let A ← copyFromState n mem
  copyToState mem (rounds ⟨A, E0, C0⟩).A

/-- `data + laneOffset*k*SnP_laneLengthInBytes`, as an offset in bytes computed in `unsigned int` (KeccakP-1600-times2-SIMD128.c:120-121,
KeccakP-1600-times4-SIMD256.c:130-133). -/
def ptr (laneOffset k : Nat) : Nat := laneOffset * k * 8 % 2 ^ 32

/-- `while(dataByteLen >= thr) { body; data += adv; dataByteLen -= dec; }` of the fast loops (KeccakP-1600-times2-SIMD128.c:870-901, 947-953;
KeccakP-1600-times4-SIMD256.c:907-942, 949-955, 1012-1047, 1059-1089, 1096-1102): `data` is what remains of the data from the pointer
on, `adv` and `dec` are the numbers of bytes by which the pointer moves and `dataByteLen` decreases.  The result is the state of
the variables `s` and the total the pointer moved by. -/
def absorbLoop {σ : Type} (thr adv dec : Nat) (body : Bytes → σ → Option σ) : Nat → Bytes → Nat → σ → Option (σ × Nat)
  | 0, _, _, _ => none
  | fuel + 1, data, len, s =>
    if len ≥ thr then do
      let s ← body data s
      let (s, total) ← absorbLoop thr adv dec body fuel (data.drop adv) ((len + 2 ^ 64 - dec) % 2 ^ 64) s
      some (s, total + adv)
    else some (s, 0)

end Simd
