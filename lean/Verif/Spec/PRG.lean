import Verif.Spec.Duplex

/-!
# The sponge-based pseudo-random generator

From "Sponge-based pseudo-random number generators" (CHES 2010), byte-oriented, on top of the duplex construction
of `Spec/Duplex.lean`: seed bytes are collected in blocks of `ρ` bytes, each of which is given to a duplexing
call; output comes in blocks of `ρ` bytes, each of which is the output of a duplexing call.  Everything is
defined one byte at a time, so that no call boundary appears.  Nothing here refers to the model of the code.
-/

namespace Spec.PRG
open Spec.Duplex (State block)

variable (b : Nat) (f : Bits → Bits) (r : Nat)

/-- The block size in bytes: the largest number of whole bytes that fits with two bits of padding. -/
def rho : Nat := (r - 2) / 8

/-- A duplexing call on what is queued. -/
def dup (s : State) : State := { hist := s.queue :: s.hist, queue := [], out := 0 }

/-- Queue one seed byte; a full block is given to a duplexing call. -/
def feedByte (s : State) (x : Byte) : State :=
  let s := { s with queue := s.queue ++ Bits.ofByte x }
  if s.queue.length = 8 * rho r then dup s else s

/-- Feed seed bytes; what remains of the current output block is dropped. -/
def feed (s : State) (x : Bytes) : State := { x.foldl (feedByte r) s with out := rho r }

/-- Fetch one byte (as 8 bits): the next of the current output block, if any is left, or else the first one of
a new block. -/
def fetchByte (s : State) : State × Bits :=
  let s := if s.out < rho r then s else dup s
  ({ s with out := s.out + 1 }, ((block b f r s.hist).drop (8 * s.out)).take 8)

/-- Fetch bytes. -/
def fetch (s : State) : Nat → State × Bits
  | 0 => (s, [])
  | n + 1 =>
    let (s1, x) := fetchByte b f r s
    let (s2, y) := fetch s1 n
    (s2, x ++ y)

/-- Forget: a duplexing call, then another one whose input is the output of the first (so that `ρ` bytes of the
state are erased); the output block is dropped. -/
def forget (s : State) : State :=
  let s1 := dup s
  { dup { s1 with queue := (block b f r s1.hist).take (8 * rho r) } with out := rho r }

/-- The operations. -/
inductive Op
  | feed (x : Bytes)
  | fetch (n : Nat)
  | forget

/-- One operation: return code, new state, output bits.  Forgetting is refused if a block is smaller than the
capacity. -/
def step (s : State) : Op → Nat × State × Bits
  | .feed x => (0, feed r s x, [])
  | .fetch n => (0, fetch b f r s n)
  | .forget => if b - r ≤ 8 * rho r then (0, forget b f r s, []) else (1, s, [])

/-- The answers to a sequence of operations. -/
def run (s : State) : List Op → List (Nat × Bits)
  | [] => []
  | o :: os => ((step b f r s o).1, (step b f r s o).2.2) :: run (step b f r s o).2.1 os

end Spec.PRG
