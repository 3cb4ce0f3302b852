import Verif.Spec.FIPS202

/-!
# The duplex construction

From "Duplexing the sponge" (SAC 2011), section 3, together with the duplexing-sponge lemma: the behaviour of
a duplex object is described purely in terms of the sponge function applied to the history of its inputs.
The calls are those of `KeccakDuplex-documentation.h`.  Nothing here refers to the model of the code.
-/

namespace Spec.Duplex

/-- The sponge input made of the padded blocks of a history, given most recent first. -/
def padded (r : Nat) : List Bits → Bits
  | [] => []
  | σ :: older => padded r older ++ (σ ++ pad101 r σ.length)

/-- The `r` bits that can be output after a history: by the duplexing-sponge lemma,
`sponge(σ0 || pad0 || σ1 || pad1 || ... || σi, r)`; all zero before the first call. -/
def block (b : Nat) (f : Bits → Bits) (r : Nat) : List Bits → Bits
  | [] => List.replicate r false
  | σ :: older => sponge b f r (padded r older ++ σ) r

/-- `n` bytes of the block from byte `o` on, as bits; missing bits of the last byte are zero. -/
def piece (blk : Bits) (o n : Nat) : Bits :=
  let x := (blk.drop (8 * o)).take (8 * n)
  x ++ List.replicate (8 * n - x.length) false

/-- The bits of a byte before its most significant set bit (`delimitedSigmaEnd`). -/
def trailing (d : Byte) : Bits := (Bits.ofByte d).take (Nat.log2 d.toNat)

/-- The state of a duplex object: history of inputs (most recent first), queued input bits, number of output
bytes already taken. -/
structure State where
  hist : List Bits
  queue : Bits
  out : Nat

/-- The calls. -/
inductive Call
  | duplexing (sigmaBegin : Bytes) (ZByteLen : Nat) (delimitedSigmaEnd : Byte)
  | feed (input : Bytes)
  | zeroes (n : Nat)
  | overwrite (input : Bytes)
  | overwriteZeroes (n : Nat)
  | further (n : Nat)
  | furtherAndAdd (input : Bytes)

/-- Queueing bits, if they fit in `r - 2` bits. -/
def enqueue (r : Nat) (s : State) (x : Bits) : Nat × State × Bits :=
  if s.queue.length + x.length ≤ r - 2 then (0, { s with queue := s.queue ++ x }, []) else (1, s, [])

/-- One call: return code, new state, output bits. -/
def step (b : Nat) (f : Bits → Bits) (r : Nat) (s : State) : Call → Nat × State × Bits
  | .duplexing σ n d =>
    if d ≠ 0 ∧ s.queue.length + 8 * σ.length + (trailing d).length ≤ r - 2 ∧ n ≤ (r + 7) / 8 then
      let hist := (s.queue ++ Bits.ofBytes σ ++ trailing d) :: s.hist
      (0, { hist := hist, queue := [], out := n }, piece (block b f r hist) 0 n)
    else (1, s, [])
  | .feed x => enqueue r s (Bits.ofBytes x)
  | .zeroes n => enqueue r s (List.replicate (8 * n) false)
  | .overwrite x =>
    -- "the input data is first bitwise added with the output data of the previous call at the same offset"
    if s.queue.length + 8 * x.length ≤ r - 2 then
      enqueue r s (xorBits (Bits.ofBytes x) (((block b f r s.hist).drop s.queue.length).take (8 * x.length)))
    else (1, s, [])
  | .overwriteZeroes n =>
    -- "input data ... equal to the output data of the previous duplexing call at the same offset"
    if s.queue = [] ∧ 8 * n ≤ r - 2 then enqueue r s ((block b f r s.hist).take (8 * n)) else (1, s, [])
  | .further n =>
    if s.out + n ≤ (r + 7) / 8 then
      (0, { s with out := s.out + n }, piece (block b f r s.hist) s.out n)
    else (1, s, [])
  | .furtherAndAdd x =>
    if s.out + x.length ≤ (r + 7) / 8 then
      (0, { s with out := s.out + x.length },
        piece (xorBits (Bits.ofBytes x) ((block b f r s.hist).drop (8 * s.out))) 0 x.length)
    else (1, s, [])

/-- The preconditions that the code relies on the caller to meet: the trailing bits given to a duplexing call
fit after the queued bytes; no output is requested at positions where input has been queued; and no zero-length
output is requested when the last, incomplete byte of the block has been output. -/
def Pre (r : Nat) (s : State) : Call → Prop
  | .duplexing σ _ d =>
    s.queue.length + 8 * σ.length ≤ r - 2 → s.queue = [] ∨ s.queue.length + 8 * σ.length + (trailing d).length ≤ r - 2
  | .further n => (n = 0 → 8 * s.out ≤ r) ∧ (n ≠ 0 → s.queue.length ≤ 8 * s.out)
  | .furtherAndAdd x => (x = [] → 8 * s.out ≤ r) ∧ (x ≠ [] → s.queue.length ≤ 8 * s.out)
  | _ => True

/-- A freshly initialised object. -/
def start (r : Nat) : State := { hist := [], queue := [], out := (r + 7) / 8 }

/-- The answers (return code and output bits) to a sequence of calls. -/
def run (b : Nat) (f : Bits → Bits) (r : Nat) (s : State) : List Call → List (Nat × Bits)
  | [] => []
  | c :: cs => ((step b f r s c).1, (step b f r s c).2.2) :: run b f r (step b f r s c).2.1 cs

/-- All calls of a sequence meet the preconditions. -/
def AllPre (b : Nat) (f : Bits → Bits) (r : Nat) (s : State) : List Call → Prop
  | [] => True
  | c :: cs => Pre r s c ∧ AllPre b f r (step b f r s c).2.1 cs

end Spec.Duplex
