import Verif.Model.SnP

/-!
# The fallback of a parallel implementation on one of lower parallelism degree

Models `lib/low/common/PlSnP-Fallback.inc`.  The file defines the functions of a parallel implementation
(`PlSnP_*`) of degree `PlSnP_targetParallelism` in terms of those of an implementation of degree
`PlSnP_baseParallelism`: a single-state one (`SnP_*`) when this is 1, a parallel one otherwise.  Both are here
structures of functions on *raw memory*: the bytes of the object `states` points to, in whatever form the
implementation keeps the state in it (`Single`, `Par`); `ofSingle` and `ofPar` are the two variants of the file.

* Accessing memory outside the object gives `none`, so does a call of a base function failing.
* The memory of the object passed to a `PlSnP_*` function has `PlSnP_factor * SnP_stateOffset` bytes.  (This
  constant is left to the header of the implementation; the file does not define it.)
* Offsets computed in `unsigned int` wrap around at 2^32.
* A pointer into a buffer is what remains of the buffer from there on; the pointer moved past the end of
  the buffer after the last iteration is not undefined here.
* `input` and `output` of `ExtractAndAddBytes` and `ExtractAndAddLanesAll` are separate buffers.
* No header or source file of this version of the repository includes the file.
-/

namespace PlSnPFallback

/-- The permutations the file has a `PlSnP_PermuteAll*` function for (PlSnP-Fallback.inc:151-207). -/
inductive Perm
  | all
  | r12
  | r6
  | r4
deriving DecidableEq

/-- A single-state implementation, `SnP_*` with `PlSnP_baseParallelism == 1` (PlSnP-Fallback.inc:44-46, 56-68). -/
structure Single where
  /-- `SnP_stateSizeInBytes` -/
  size : Nat
  /-- `SnP_stateAlignment` -/
  align : Nat
  /-- `SnP_laneLengthInBytes` -/
  lane : Nat
  init : Bytes → Option Bytes
  addByte : Bytes → Byte → Nat → Option Bytes
  addBytes : Bytes → Bytes → Nat → Option Bytes
  overwriteBytes : Bytes → Bytes → Nat → Option Bytes
  overwriteWithZeroes : Bytes → Nat → Option Bytes
  permute : Bytes → Option Bytes
  permute12 : Bytes → Option Bytes
  permuteN : Bytes → Nat → Option Bytes
  extractBytes : Bytes → Nat → Nat → Option Bytes
  extractAndAddBytes : Bytes → Bytes → Nat → Option Bytes

/-- A parallel implementation: the functions of `doc/PlSnP-documentation.h` (PlSnP-Fallback.inc:31-42, 47-50).
`data` is what remains of the buffer from the pointer on; the functions with an output buffer return its new
contents. -/
structure Par where
  /-- number of states -/
  par : Nat
  /-- `SnP_statesSizeInBytes` -/
  size : Nat
  /-- `SnP_statesAlignment` -/
  align : Nat
  /-- `SnP_laneLengthInBytes` -/
  lane : Nat
  initAll : Bytes → Option Bytes
  addByte : Bytes → Nat → Byte → Nat → Option Bytes
  addBytes : Bytes → Nat → Bytes → Nat → Option Bytes
  addLanesAll : Bytes → (data : Bytes) → (laneCount laneOffset : Nat) → Option Bytes
  overwriteBytes : Bytes → Nat → Bytes → Nat → Option Bytes
  overwriteLanesAll : Bytes → (data : Bytes) → (laneCount laneOffset : Nat) → Option Bytes
  overwriteWithZeroes : Bytes → Nat → Nat → Option Bytes
  permuteAll : Perm → Bytes → Option Bytes
  extractBytes : Bytes → Nat → Nat → Nat → Option Bytes
  extractLanesAll : Bytes → (out : Bytes) → (laneCount laneOffset : Nat) → Option Bytes
  extractAndAddBytes : Bytes → Nat → Bytes → Nat → Option Bytes
  extractAndAddLanesAll : Bytes → (input out : Bytes) → (laneCount laneOffset : Nat) → Option Bytes

/-- `SnP_stateOffset` (PlSnP-Fallback.inc:52). -/
def stateOffset (size align : Nat) : Nat := (size + (align - 1)) / align * align

/-- Reading the object at `stateWithIndexConst(i)` (PlSnP-Fallback.inc:54). -/
def getState (size align i : Nat) (states : Bytes) : Option Bytes :=
  if i * stateOffset size align + size ≤ states.length then
    some (Bytes.slice states (i * stateOffset size align) size) else none

/-- A function working on the object at `stateWithIndex(i)` (PlSnP-Fallback.inc:53). -/
def onState (size align i : Nat) (f : Bytes → Option Bytes) (states : Bytes) : Option Bytes := do
  let s ← getState size align i states
  let s ← f s
  some (Bytes.setAt states (i * stateOffset size align) s)

/-- The loop `for(i=0; i<PlSnP_factor; i++) { f(stateWithIndex(i), data); data += adv; }` of `InitializeAll`,
`AddLanesAll`, `OverwriteLanesAll`, `PermuteAll` (PlSnP-Fallback.inc:79-84, 109-116, 132-139, 155-161), from
iteration `i` on with `n` iterations to go. -/
def loop (size align : Nat) (f : Bytes → Bytes → Option Bytes) (adv : Nat) :
    Nat → Nat → Bytes → Bytes → Option Bytes
  | _, 0, _, states => some states
  | i, n + 1, data, states => do
    let states ← onState size align i (fun s => f s data) states
    loop size align f adv (i + 1) n (data.drop adv) states

/-- The loop of `ExtractLanesAll` and `ExtractAndAddLanesAll` (PlSnP-Fallback.inc:222-229, 245-253): the new contents of
the output buffer from the pointer on. -/
def outLoop (size align : Nat) (f : Bytes → Bytes → Bytes → Option Bytes) (adv : Nat) (states : Bytes) :
    Nat → Nat → Bytes → Bytes → Option Bytes
  | _, 0, _, out => some out
  | i, n + 1, input, out => do
    let s ← getState size align i states
    let out ← f s input out
    let rest ← outLoop size align f adv states (i + 1) n (input.drop adv) (out.drop adv)
    some (out.take adv ++ rest)

/-- Writing `x` at the beginning of the buffer `out`. -/
def store (out x : Bytes) : Option Bytes := SnP.overwriteBytes out x 0

/-- The functions of the file with `PlSnP_baseParallelism == 1` and `PlSnP_targetParallelism = T`
(PlSnP-Fallback.inc:70-254, the `#if` branches).  The size is the one of the array of states. -/
def ofSingle (S : Single) (T : Nat) : Par where
  par := T
  size := T * stateOffset S.size S.align
  align := S.align
  lane := S.lane
  -- 75-85
  initAll := loop S.size S.align (fun s _ => S.init s) 0 0 T []
  -- 87-94
  addByte states i b off := onState S.size S.align i (fun s => S.addByte s b off) states
  -- 96-103
  addBytes states i data off := onState S.size S.align i (fun s => S.addBytes s data off) states
  -- 105-117
  addLanesAll states data laneCount laneOffset :=
    loop S.size S.align (fun s data => do
      let x ← SnP.readBuf data (laneCount * S.lane % 2 ^ 32)
      S.addBytes s x 0) (1 * laneOffset * S.lane % 2 ^ 32) 0 T data states
  -- 119-126
  overwriteBytes states i data off := onState S.size S.align i (fun s => S.overwriteBytes s data off) states
  -- 128-140
  overwriteLanesAll states data laneCount laneOffset :=
    loop S.size S.align (fun s data => do
      let x ← SnP.readBuf data (laneCount * S.lane % 2 ^ 32)
      S.overwriteBytes s x 0) (1 * laneOffset * S.lane % 2 ^ 32) 0 T data states
  -- 142-149
  overwriteWithZeroes states i n := onState S.size S.align i (fun s => S.overwriteWithZeroes s n) states
  -- 151-207
  permuteAll p := loop S.size S.align (fun s _ =>
    match p with
    | .all => S.permute s
    | .r12 => S.permute12 s
    | .r6 => S.permuteN s 6
    | .r4 => S.permuteN s 4) 0 0 T []
  -- 209-216
  extractBytes states i off len := do
    let s ← getState S.size S.align i states
    S.extractBytes s off len
  -- 218-230
  extractLanesAll states out laneCount laneOffset :=
    outLoop S.size S.align (fun s _ out => do
      let x ← S.extractBytes s 0 (laneCount * S.lane % 2 ^ 32)
      store out x) (laneOffset * S.lane * 1 % 2 ^ 32) states 0 T [] out
  -- 232-239
  extractAndAddBytes states i input off := do
    let s ← getState S.size S.align i states
    S.extractAndAddBytes s input off
  -- 241-254
  extractAndAddLanesAll states input out laneCount laneOffset :=
    outLoop S.size S.align (fun s input out => do
      let x ← SnP.readBuf input (laneCount * S.lane % 2 ^ 32)
      let y ← S.extractAndAddBytes s x 0
      store out y) (laneOffset * S.lane * 1 % 2 ^ 32) states 0 T input out

/-- The functions of the file with `PlSnP_baseParallelism = B.par` other than 1 and
`PlSnP_targetParallelism = T` (PlSnP-Fallback.inc:70-254, the `#else` branches). -/
def ofPar (B : Par) (T : Nat) : Par where
  par := T
  size := T / B.par * stateOffset B.size B.align
  align := B.align
  lane := B.lane
  -- 75-85
  initAll := loop B.size B.align (fun s _ => B.initAll s) 0 0 (T / B.par) []
  -- 87-94
  addByte states i b off :=
    onState B.size B.align (i / B.par) (fun s => B.addByte s (i % B.par) b off) states
  -- 96-103
  addBytes states i data off :=
    onState B.size B.align (i / B.par) (fun s => B.addBytes s (i % B.par) data off) states
  -- 105-117
  addLanesAll states data laneCount laneOffset :=
    loop B.size B.align (fun s data => B.addLanesAll s data laneCount laneOffset)
      (B.par * laneOffset * B.lane % 2 ^ 32) 0 (T / B.par) data states
  -- 119-126
  overwriteBytes states i data off :=
    onState B.size B.align (i / B.par) (fun s => B.overwriteBytes s (i % B.par) data off) states
  -- 128-140
  overwriteLanesAll states data laneCount laneOffset :=
    loop B.size B.align (fun s data => B.overwriteLanesAll s data laneCount laneOffset)
      (B.par * laneOffset * B.lane % 2 ^ 32) 0 (T / B.par) data states
  -- 142-149
  overwriteWithZeroes states i n :=
    onState B.size B.align (i / B.par) (fun s => B.overwriteWithZeroes s (i % B.par) n) states
  -- 151-207
  permuteAll p := loop B.size B.align (fun s _ => B.permuteAll p s) 0 0 (T / B.par) []
  -- 209-216
  extractBytes states i off len := do
    let s ← getState B.size B.align (i / B.par) states
    B.extractBytes s (i % B.par) off len
  -- 218-230
  extractLanesAll states out laneCount laneOffset :=
    outLoop B.size B.align (fun s _ out => B.extractLanesAll s out laneCount laneOffset)
      (laneOffset * B.lane * B.par % 2 ^ 32) states 0 (T / B.par) [] out
  -- 232-239
  extractAndAddBytes states i input off := do
    let s ← getState B.size B.align (i / B.par) states
    B.extractAndAddBytes s (i % B.par) input off
  -- 241-254
  extractAndAddLanesAll states input out laneCount laneOffset :=
    outLoop B.size B.align (fun s input out => B.extractAndAddLanesAll s input out laneCount laneOffset)
      (laneOffset * B.lane * B.par % 2 ^ 32) states 0 (T / B.par) input out

end PlSnPFallback
