import Verif.Model.PlSnPFallback

/-!
# What `doc/PlSnP-documentation.h` says about parallel states

A parallel implementation holds `par` states of `w` bytes.  `view mem k` is the state of instance `k` as kept in the
memory `mem` of the object.  The documentation describes every function by its effect on these states and on the output
buffer; nothing else is said about the memory.
-/

namespace PlSpec

open PlSnPFallback (Par Single Perm)

/-- The object holds the states of `mem`, except that state `i` has become `s`. -/
def Changed (view : Bytes → Nat → Bytes) (par : Nat) (mem mem' : Bytes) (i : Nat) (s : Bytes) : Prop :=
  view mem' i = s ∧ ∀ k < par, k ≠ i → view mem' k = view mem k

/-- The output buffer after `n` instances wrote their pieces one after the other, `stride` bytes apart. -/
def strided (piece : Nat → Bytes) (stride : Nat) : Nat → Bytes → Bytes
  | 0, out => out
  | n + 1, out => Bytes.setAt (strided piece stride n out) (n * stride) (piece n)

/-- The part of a buffer an instance accesses: `len` bytes at instance times `stride`. -/
def InBuf (par stride len : Nat) (buf : Bytes) : Prop := ∀ k < par, k * stride + len ≤ buf.length

/-- Every function of the implementation `I` acts as documented on `I.par` independent states of `w` bytes, the
permutations being `F`.  For the functions writing lanes to the output buffer, the pieces of different instances do not overlap
(`laneCount ≤ laneOffset`): if they did, what is left in the common part would depend on the order in which the implementation writes. -/
structure Independent (I : Par) (w : Nat) (F : Perm → Bytes → Bytes) (view : Bytes → Nat → Bytes) : Prop where
  width : ∀ mem : Bytes, mem.length = I.size → ∀ k < I.par, (view mem k).length = w
  initAll : ∀ mem : Bytes, mem.length = I.size →
    ∃ mem', I.initAll mem = some mem' ∧ mem'.length = I.size ∧ ∀ k < I.par, view mem' k = Bytes.zeros w
  addByte : ∀ mem : Bytes, mem.length = I.size → ∀ i < I.par, ∀ (b : Byte) (off : Nat), off < w →
    ∃ mem', I.addByte mem i b off = some mem' ∧ mem'.length = I.size ∧
      Changed view I.par mem mem' i (Bytes.xorAt (view mem i) off [b])
  addBytes : ∀ mem : Bytes, mem.length = I.size → ∀ i < I.par, ∀ (data : Bytes) (off : Nat), off + data.length ≤ w →
    ∃ mem', I.addBytes mem i data off = some mem' ∧ mem'.length = I.size ∧
      Changed view I.par mem mem' i (Bytes.xorAt (view mem i) off data)
  addLanesAll : ∀ mem : Bytes, mem.length = I.size → ∀ (data : Bytes) (laneCount laneOffset : Nat),
    laneCount * I.lane ≤ w → I.par * (laneOffset * I.lane) < 2 ^ 32 →
    InBuf I.par (laneOffset * I.lane) (laneCount * I.lane) data →
    ∃ mem', I.addLanesAll mem data laneCount laneOffset = some mem' ∧ mem'.length = I.size ∧
      ∀ k < I.par, view mem' k =
        Bytes.xorAt (view mem k) 0 (Bytes.slice data (k * (laneOffset * I.lane)) (laneCount * I.lane))
  overwriteBytes : ∀ mem : Bytes, mem.length = I.size → ∀ i < I.par, ∀ (data : Bytes) (off : Nat),
    off + data.length ≤ w →
    ∃ mem', I.overwriteBytes mem i data off = some mem' ∧ mem'.length = I.size ∧
      Changed view I.par mem mem' i (Bytes.setAt (view mem i) off data)
  overwriteLanesAll : ∀ mem : Bytes, mem.length = I.size → ∀ (data : Bytes) (laneCount laneOffset : Nat),
    laneCount * I.lane ≤ w → I.par * (laneOffset * I.lane) < 2 ^ 32 →
    InBuf I.par (laneOffset * I.lane) (laneCount * I.lane) data →
    ∃ mem', I.overwriteLanesAll mem data laneCount laneOffset = some mem' ∧ mem'.length = I.size ∧
      ∀ k < I.par, view mem' k =
        Bytes.setAt (view mem k) 0 (Bytes.slice data (k * (laneOffset * I.lane)) (laneCount * I.lane))
  overwriteWithZeroes : ∀ mem : Bytes, mem.length = I.size → ∀ i < I.par, ∀ n : Nat, n ≤ w →
    ∃ mem', I.overwriteWithZeroes mem i n = some mem' ∧ mem'.length = I.size ∧
      Changed view I.par mem mem' i (Bytes.setAt (view mem i) 0 (Bytes.zeros n))
  permuteAll : ∀ mem : Bytes, mem.length = I.size → ∀ p : Perm,
    ∃ mem', I.permuteAll p mem = some mem' ∧ mem'.length = I.size ∧ ∀ k < I.par, view mem' k = F p (view mem k)
  extractBytes : ∀ mem : Bytes, mem.length = I.size → ∀ i < I.par, ∀ off len : Nat, off + len ≤ w →
    I.extractBytes mem i off len = some (Bytes.slice (view mem i) off len)
  extractLanesAll : ∀ mem : Bytes, mem.length = I.size → ∀ (out : Bytes) (laneCount laneOffset : Nat),
    laneCount * I.lane ≤ w → I.par * (laneOffset * I.lane) < 2 ^ 32 →
    laneCount ≤ laneOffset →
    InBuf I.par (laneOffset * I.lane) (laneCount * I.lane) out →
    I.extractLanesAll mem out laneCount laneOffset =
      some (strided (fun k => Bytes.slice (view mem k) 0 (laneCount * I.lane)) (laneOffset * I.lane) I.par out)
  extractAndAddBytes : ∀ mem : Bytes, mem.length = I.size → ∀ i < I.par, ∀ (input : Bytes) (off : Nat),
    off + input.length ≤ w →
    I.extractAndAddBytes mem i input off = some (Bytes.xor input (Bytes.slice (view mem i) off input.length))
  extractAndAddLanesAll : ∀ mem : Bytes, mem.length = I.size → ∀ (input out : Bytes) (laneCount laneOffset : Nat),
    laneCount * I.lane ≤ w → I.par * (laneOffset * I.lane) < 2 ^ 32 →
    laneCount ≤ laneOffset →
    InBuf I.par (laneOffset * I.lane) (laneCount * I.lane) input →
    InBuf I.par (laneOffset * I.lane) (laneCount * I.lane) out →
    I.extractAndAddLanesAll mem input out laneCount laneOffset =
      some (strided (fun k => Bytes.xor (Bytes.slice input (k * (laneOffset * I.lane)) (laneCount * I.lane))
        (Bytes.slice (view mem k) 0 (laneCount * I.lane))) (laneOffset * I.lane) I.par out)

/-- Every function of the single-state implementation `S` acts as documented (`doc/SnP-documentation.h`) on a state of
`w` bytes. -/
structure SingleOk (S : Single) (w : Nat) (F : Perm → Bytes → Bytes) (view : Bytes → Bytes) : Prop where
  width : ∀ mem : Bytes, mem.length = S.size → (view mem).length = w
  init : ∀ mem : Bytes, mem.length = S.size →
    ∃ mem', S.init mem = some mem' ∧ mem'.length = S.size ∧ view mem' = Bytes.zeros w
  addByte : ∀ mem : Bytes, mem.length = S.size → ∀ (b : Byte) (off : Nat), off < w →
    ∃ mem', S.addByte mem b off = some mem' ∧ mem'.length = S.size ∧ view mem' = Bytes.xorAt (view mem) off [b]
  addBytes : ∀ mem : Bytes, mem.length = S.size → ∀ (data : Bytes) (off : Nat), off + data.length ≤ w →
    ∃ mem', S.addBytes mem data off = some mem' ∧ mem'.length = S.size ∧ view mem' = Bytes.xorAt (view mem) off data
  overwriteBytes : ∀ mem : Bytes, mem.length = S.size → ∀ (data : Bytes) (off : Nat), off + data.length ≤ w →
    ∃ mem', S.overwriteBytes mem data off = some mem' ∧ mem'.length = S.size ∧
      view mem' = Bytes.setAt (view mem) off data
  overwriteWithZeroes : ∀ mem : Bytes, mem.length = S.size → ∀ n : Nat, n ≤ w →
    ∃ mem', S.overwriteWithZeroes mem n = some mem' ∧ mem'.length = S.size ∧
      view mem' = Bytes.setAt (view mem) 0 (Bytes.zeros n)
  permute : ∀ mem : Bytes, mem.length = S.size →
    ∃ mem', S.permute mem = some mem' ∧ mem'.length = S.size ∧ view mem' = F .all (view mem)
  permute12 : ∀ mem : Bytes, mem.length = S.size →
    ∃ mem', S.permute12 mem = some mem' ∧ mem'.length = S.size ∧ view mem' = F .r12 (view mem)
  permute6 : ∀ mem : Bytes, mem.length = S.size →
    ∃ mem', S.permuteN mem 6 = some mem' ∧ mem'.length = S.size ∧ view mem' = F .r6 (view mem)
  permute4 : ∀ mem : Bytes, mem.length = S.size →
    ∃ mem', S.permuteN mem 4 = some mem' ∧ mem'.length = S.size ∧ view mem' = F .r4 (view mem)
  extractBytes : ∀ mem : Bytes, mem.length = S.size → ∀ off len : Nat, off + len ≤ w →
    S.extractBytes mem off len = some (Bytes.slice (view mem) off len)
  extractAndAddBytes : ∀ mem : Bytes, mem.length = S.size → ∀ (input : Bytes) (off : Nat), off + input.length ≤ w →
    S.extractAndAddBytes mem input off = some (Bytes.xor input (Bytes.slice (view mem) off input.length))

end PlSpec
