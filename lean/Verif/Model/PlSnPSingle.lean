import Verif.Model.PlSnPFallback
import Verif.Model.KeccakP1600Opt
import Verif.Model.Relaned

/-!
# Single-state implementations as base of the fallback

The functions of an implementation of `doc/SnP-documentation.h` seen on the memory of its state object: `load` reads the
object, `save` writes it.  The arguments and results of the functions stay those of the models of the implementations.
-/

namespace PlSnPFallback

/-- The functions `a` (and the permutations) of an implementation keeping its state, of type `σ`, in an object of `size`
bytes (`SnP_*` of PlSnP-Fallback.inc:56-68 on `stateWithIndex(i)`). -/
def singleOf {σ : Type} (a : Access σ) (load : Bytes → σ) (save : σ → Bytes) (size align lane : Nat)
    (permute permute12 : σ → σ) (permuteN : σ → Nat → Option σ) : Single where
  size := size
  align := align
  lane := lane
  init _ := some (save a.init)
  addByte m b off := (a.addByte (load m) b off).map save
  addBytes m data off := (a.addBytes (load m) data off data.length).map save
  overwriteBytes m data off := (a.overwriteBytes (load m) data off data.length).map save
  overwriteWithZeroes m n := (a.overwriteWithZeroes (load m) n).map save
  permute m := some (save (permute (load m)))
  permute12 m := some (save (permute12 (load m)))
  permuteN m n := (permuteN (load m) n).map save
  extractBytes m off len := a.extractBytes (load m) off len
  extractAndAddBytes m input off := a.extractAndAddBytes (load m) input off input.length

/-- The reference implementation (KeccakP-1600-reference.c; `KeccakP1600_plain8_state`, ref-64bits/KeccakP-1600-SnP.h:26-28). -/
def refSingle : Single :=
  singleOf KeccakP1600.Ref.access id id 200 8 8 KeccakP1600.Ref.permute24 KeccakP1600.Ref.permute12
    (fun s n => some (KeccakP1600.Ref.permuteNrounds n s))

/-- The optimised 64-bit implementation (KeccakP-1600-opt64.c; the state is an array of 25 `uint64_t`,
plain-64bits/KeccakP-1600-SnP.h:30-32). -/
def opt64Single (k : KeccakP1600.Opt64.Cfg) (E0 : KeccakP1600.Opt64.V) (C0 : KeccakP1600.Opt64.C5) : Single :=
  singleOf (KeccakP1600.Opt64.access k) KeccakP1600.lanesOfBytes KeccakP1600.bytesOfLanes 200 8 8
    (KeccakP1600.Opt64.permute24 k E0 C0) (KeccakP1600.Opt64.permute12 k E0 C0)
    (fun s n => some (KeccakP1600.Opt64.permuteNrounds k E0 C0 s n))

end PlSnPFallback
