import Verif.Model.SnP

/-!
# Keccak-p[1600]: common notions and the 64-bit reference implementation

Models `lib/low/KeccakP-1600/ref-64bits/KeccakP-1600-reference.c`.  `tKeccakLane` is `uint64_t`; an array of 25
lanes is a function from `Fin 25`.  The state of this implementation is an array of 200 bytes, which
`Permute_Nrounds` views as 25 words: by a pointer cast on little-endian platforms (line 219), by
`fromBytesToWords`/`fromWordsToBytes` otherwise (lines 221-223).  Both are the same map; the model uses the
explicit one.  The `display...` calls (compiled only with `KeccakReference`) are not modelled.
-/

namespace KeccakP1600

/-- `uint64_t` / `tKeccakLane` (KeccakP-1600-reference.c:38). -/
abbrev Lane := BitVec 64

/-- An array `tKeccakLane A[25]`. -/
abbrev Lanes := Fin 25 → Lane

/-- `for(i=a; i<a+n; i++) s = f(i, s)`. -/
def loopFrom {σ : Type} (f : Nat → σ → σ) : (a n : Nat) → σ → σ
  | _, 0, s => s
  | a, n + 1, s => loopFrom f (a + 1) n (f a s)

/-- `A[i] = v`. -/
def put {n : Nat} {α : Type} (A : Fin n → α) (i : Fin n) (v : α) : Fin n → α := fun j => if j = i then v else A j

/-- `fromBytesToWords` (KeccakP-1600-reference.c:242-251), one word: the loop over `j`. -/
def wordOfBytes (b : Bytes) : Lane :=
  loopFrom (fun j w => w ||| ((b.getD j 0).setWidth 64 <<< (8 * j))) 0 8 0

/-- `fromBytesToWords` (KeccakP-1600-reference.c:242-251). -/
def lanesOfBytes (s : Bytes) : Lanes := fun i => wordOfBytes (s.drop (i.val * 8))

/-- `fromWordsToBytes` (KeccakP-1600-reference.c:253-260), one word: the loop over `j`. -/
def bytesOfWord (w : Lane) : Bytes := (List.range 8).map fun j => ((w >>> (8 * j)) &&& 0xFF).setWidth 8

/-- `fromWordsToBytes` (KeccakP-1600-reference.c:253-260). -/
def bytesOfLanes (A : Lanes) : Bytes := (List.finRange 25).flatMap fun i => bytesOfWord (A i)

namespace Ref

/-- `index(x, y)` (KeccakP-1600-reference.c:42). -/
def index (x y : Nat) : Fin 25 := ⟨x % 5 + 5 * (y % 5), by omega⟩

/-- `KeccakRoundConstants`, the table (KeccakP-1600-reference.c:109-135). -/
def roundConstants : List Lane := [
  0x0000000000000001, 0x0000000000008082, 0x800000000000808a, 0x8000000080008000,
  0x000000000000808b, 0x0000000080000001, 0x8000000080008081, 0x8000000000008009,
  0x000000000000008a, 0x0000000000000088, 0x0000000080008009, 0x000000008000000a,
  0x000000008000808b, 0x800000000000008b, 0x8000000000008089, 0x8000000000008003,
  0x8000000000008002, 0x8000000000000080, 0x000000000000800a, 0x800000008000000a,
  0x8000000080008081, 0x8000000000008080, 0x0000000080000001, 0x8000000080008008]

/-- `KeccakRhoOffsets`, the table (KeccakP-1600-reference.c:137-140). -/
def rhoOffsets : List Nat :=
  [0, 1, 62, 28, 27, 36, 44, 6, 55, 20, 3, 10, 43, 25, 39, 41, 45, 15, 21, 8, 18, 2, 61, 56, 14]

/-- `LFSR86540` (KeccakP-1600-reference.c:96-105): the result and the new LFSR state. -/
def lfsr86540 (LFSR : Byte) : Bool × Byte :=
  ((LFSR &&& 0x01) != 0,
   if (LFSR &&& 0x80) != 0 then (LFSR <<< 1) ^^^ 0x71 else LFSR <<< 1)

/-- The inner loop of `KeccakP1600_InitializeRoundConstants` (KeccakP-1600-reference.c:71-76), from the LFSR
state: the constant and the new LFSR state. -/
def initRoundConstant (LFSR : Byte) : Lane × Byte :=
  loopFrom (fun j st =>
    let bitPosition := 2 ^ j - 1
    let r := lfsr86540 st.2
    (if r.1 then st.1 ^^^ ((1 : Lane) <<< bitPosition) else st.1, r.2)) 0 7 (0, LFSR)

/-- `KeccakP1600_InitializeRoundConstants` (KeccakP-1600-reference.c:65-78): the table it fills. -/
def initializeRoundConstants : List Lane :=
  (loopFrom (fun _ st =>
    let r := initRoundConstant st.2
    (st.1 ++ [r.1], r.2)) 0 24 (([] : List Lane), (0x01 : Byte))).1

/-- `KeccakP1600_InitializeRhoOffsets` (KeccakP-1600-reference.c:80-94): the table it fills.  The table is a
static variable, hence initially zero. -/
def initializeRhoOffsets : List Nat :=
  let T : Fin 25 → Nat := put (fun _ => 0) (index 0 0) 0
  let r := loopFrom (fun t st =>
      let x := st.2.1
      let y := st.2.2
      let T := put st.1 (index x y) (((t + 1) * (t + 2) / 2) % 64)
      let newX := (0 * x + 1 * y) % 5
      let newY := (2 * x + 3 * y) % 5
      (T, newX, newY)) 0 24 (T, 1, 0)
  (List.finRange 25).map r.1

/-- `ROL64(a, offset)` (KeccakP-1600-reference.c:307): a shift by 64 would be undefined, whence the test. -/
def rol64 (a : Lane) (offset : Nat) : Lane :=
  if offset ≠ 0 then (a <<< offset) ^^^ (a >>> (64 - offset)) else a

/-- `theta`, the first loop: `C[x]` (KeccakP-1600-reference.c:309-324). -/
def thetaC (A : Lanes) (x : Nat) : Lane := loopFrom (fun y c => c ^^^ A (index x y)) 0 5 0

/-- `theta`, the second loop: `D[x]` (KeccakP-1600-reference.c:309-324). -/
def thetaD (A : Lanes) (x : Nat) : Lane := rol64 (thetaC A ((x + 1) % 5)) 1 ^^^ thetaC A ((x + 4) % 5)

/-- `theta` (KeccakP-1600-reference.c:309-324).  The arrays `C` and `D` are computed before the state is
modified. -/
def theta (A : Lanes) : Lanes :=
  loopFrom (fun x B => loopFrom (fun y B => put B (index x y) (B (index x y) ^^^ thetaD A x)) 0 5 B) 0 5 A

/-- `rho` (KeccakP-1600-reference.c:326-332), for a given table of offsets. -/
def rho (offsets : List Nat) (A : Lanes) : Lanes :=
  loopFrom (fun x B => loopFrom (fun y B =>
    put B (index x y) (rol64 (B (index x y)) (offsets.getD (index x y).val 0))) 0 5 B) 0 5 A

/-- `pi` (KeccakP-1600-reference.c:334-343). -/
def pi (A : Lanes) : Lanes :=
  let tempA := loopFrom (fun x T => loopFrom (fun y T => put T (index x y) (A (index x y))) 0 5 T) 0 5
    (fun _ => 0)
  loopFrom (fun x B => loopFrom (fun y B =>
    put B (index (0 * x + 1 * y) (2 * x + 3 * y)) (tempA (index x y))) 0 5 B) 0 5 A

/-- `chi` (KeccakP-1600-reference.c:345-356). -/
def chi (A : Lanes) : Lanes :=
  loopFrom (fun y B =>
    let C := fun x => B (index x y) ^^^ (~~~ B (index (x + 1) y) &&& B (index (x + 2) y))
    loopFrom (fun x B' => put B' (index x y) (C x)) 0 5 B) 0 5 A

/-- `iota` (KeccakP-1600-reference.c:358-361), for a given table of constants. -/
def iota (rc : List Lane) (A : Lanes) (indexRound : Nat) : Lanes :=
  put A (index 0 0) (A (index 0 0) ^^^ rc.getD indexRound 0)

/-- `KeccakP1600Round` (KeccakP-1600-reference.c:275-305). -/
def round (rc : List Lane) (offsets : List Nat) (A : Lanes) (indexRound : Nat) : Lanes :=
  iota rc (chi (pi (rho offsets (theta A)))) indexRound

/-- `KeccakP1600OnWords` (KeccakP-1600-reference.c:263-273); `nrRounds` at most 24 (otherwise the loop index
wraps around and nothing is done). -/
def onWords (rc : List Lane) (offsets : List Nat) (A : Lanes) (nrRounds : Nat) : Lanes :=
  loopFrom (fun i A => round rc offsets A i) (24 - nrRounds) nrRounds A

/-- `KeccakP1600_Permute_Nrounds` (KeccakP-1600-reference.c:210-229), with the static tables. -/
def permuteNrounds (nrounds : Nat) (s : Bytes) : Bytes :=
  bytesOfLanes (onWords roundConstants rhoOffsets (lanesOfBytes s) nrounds)

/-- `KeccakP1600_Permute_Nrounds` when compiled with `KeccakReference`: the tables are those filled by
`KeccakP1600_StaticInitialize` (KeccakP-1600-reference.c:55-63). -/
def permuteNroundsKR (nrounds : Nat) (s : Bytes) : Bytes :=
  bytesOfLanes (onWords initializeRoundConstants initializeRhoOffsets (lanesOfBytes s) nrounds)

/-- `KeccakP1600_Permute_12rounds` (KeccakP-1600-reference.c:231-234). -/
def permute12 (s : Bytes) : Bytes := permuteNrounds 12 s

/-- `KeccakP1600_Permute_24rounds` (KeccakP-1600-reference.c:236-239). -/
def permute24 (s : Bytes) : Bytes := permuteNrounds 24 s

end Ref

end KeccakP1600
