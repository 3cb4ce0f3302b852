import Verif.Model.Relaned

/-!
# The flat byte-array view of a state

doc/SnP-documentation.h describes the state as an array of bytes, accessed through functions with an offset and
a length.  `Access.Implements` says that the functions of an implementation, whatever their state type `σ` is, do
that to the byte array `view s`.  `ok` selects the states that can exist (all of them when `σ` is an array of
words of fixed size).
-/

/-- `t` is `s` with the bytes at positions `offset + i`, `i < length`, replaced by `g i` of the old byte, and all
other bytes unchanged. -/
def Bytes.Updated (s t : Bytes) (offset length : Nat) (g : Nat → Byte → Byte) : Prop :=
  t.length = s.length ∧ ∀ j, j < s.length →
    t.getD j 0 = if offset ≤ j ∧ j < offset + length then g (j - offset) (s.getD j 0) else s.getD j 0

/-- The functions of `a` implement the byte array `view` of size `width`: within bounds they are defined, do what
their documentation says, and modify nothing else. -/
structure Access.Implements {σ : Type} (a : Access σ) (width : Nat) (ok : σ → Prop) (view : σ → Bytes) : Prop where
  length : ∀ s, ok s → (view s).length = width
  init : ok a.init ∧ view a.init = List.replicate width 0
  addByte : ∀ s b offset, ok s → offset < width →
    ∃ s', a.addByte s b offset = some s' ∧ ok s' ∧ (view s).Updated (view s') offset 1 fun _ x => x ^^^ b
  addBytes : ∀ s data offset length, ok s → offset + length ≤ width → length ≤ data.length →
    ∃ s', a.addBytes s data offset length = some s' ∧ ok s' ∧
      (view s).Updated (view s') offset length fun i x => x ^^^ data.getD i 0
  overwriteBytes : ∀ s data offset length, ok s → offset + length ≤ width → length ≤ data.length →
    ∃ s', a.overwriteBytes s data offset length = some s' ∧ ok s' ∧
      (view s).Updated (view s') offset length fun i _ => data.getD i 0
  overwriteWithZeroes : ∀ s byteCount, ok s → byteCount ≤ width →
    ∃ s', a.overwriteWithZeroes s byteCount = some s' ∧ ok s' ∧
      (view s).Updated (view s') 0 byteCount fun _ _ => 0
  extractBytes : ∀ s offset length, ok s → offset + length ≤ width →
    ∃ out, a.extractBytes s offset length = some out ∧ out.length = length ∧
      ∀ i, i < length → out.getD i 0 = (view s).getD (offset + i) 0
  extractAndAddBytes : ∀ s input offset length, ok s → offset + length ≤ width → length ≤ input.length →
    ∃ out, a.extractAndAddBytes s input offset length = some out ∧ out.length = length ∧
      ∀ i, i < length → out.getD i 0 = input.getD i 0 ^^^ (view s).getD (offset + i) 0
