import Verif.Proofs.KeccakArm32Loop
import Verif.Proofs.KeccakArm32Bytes
import Verif.Props.KeccakP32

/-!
# Property C63: the in-place 32-bit ARM implementations of Keccak-p[1600] in assembly

`Arm32` is a model of `KeccakP-1600-inplace-32bi-armv7m-le-gcc.s` and `KeccakP-1600-inplace-32bi-armv7a-le-gcc.s`, instruction by instruction.  The
specifications are `Spec/KeccakP.lean` (FIPS 202) and `Spec/ByteArray.lean` (the flat byte array).  `view32 A` is the byte array that the 50
words of the state represent; `C40_view32` says what it is, bit by bit.  The machine `M` has the state together with the registers and the words on the
stack, whose contents on entry do not matter.
-/

namespace KeccakP1600

namespace Arm32

/-- C63: for 1 to 24 rounds, whatever the registers and the stack contain, the program computes Keccak-p[1600, nr], and so do the functions for 12 and
24 rounds. -/
theorem C63_permute_partial (m : M) :
    (∀ nr, 0 < nr → nr ≤ 24 → ∃ m', permuteNrounds m nr = some m' ∧
      Bits.ofBytes (view32 m'.A) = Spec.KeccakP.keccakP nr (Bits.ofBytes (view32 m.A))) ∧
    (∃ m', permute24 m = some m' ∧ Bits.ofBytes (view32 m'.A) = Spec.KeccakP.keccakP 24 (Bits.ofBytes (view32 m.A))) ∧
    (∃ m', permute12 m = some m' ∧ Bits.ofBytes (view32 m'.A) = Spec.KeccakP.keccakP 12 (Bits.ofBytes (view32 m.A))) := by
  refine ⟨fun nr h0 h => ?_, ?_, ?_⟩
  · obtain ⟨m', e, hA⟩ := permuteNrounds_eq m nr h0 h
    exact ⟨m', e, by rw [hA]; exact (C37_ref32 m.A).1 nr h⟩
  · obtain ⟨m', e, hA⟩ := permute_eq m 24 (by omega) (by omega) rfl
    exact ⟨m', e, by rw [hA]; exact (C37_ref32 m.A).1 24 (by omega)⟩
  · obtain ⟨m', e, hA⟩ := permute_eq m 12 (by omega) (by omega) rfl
    exact ⟨m', e, by rw [hA]; exact (C37_ref32 m.A).1 12 (by omega)⟩

/-- C63, the corner: with `nr = 0` the program reads round constants past the end of its table, where Keccak-p[1600, 0] is the identity. -/
theorem C63_zero (m : M) : permuteNrounds m 0 = none ∧
    Spec.KeccakP.keccakP 0 (Bits.ofBytes (view32 m.A)) = Bits.ofBytes (view32 m.A) :=
  ⟨permuteNrounds_zero m, by
    have := (C37_ref32 m.A).1 0 (by omega)
    exact this.symm⟩

/-- C63: the words of the state after the call are those of the portable C implementation for 32-bit processors, so that the two may be exchanged
without converting the state. -/
theorem C63_same_words (m : M) (nr : Nat) (h0 : 0 < nr) (h : nr ≤ 24) :
    (permuteNrounds m nr).map M.A = Inplace32.permuteNrounds m.A nr := by
  obtain ⟨m', e, hA⟩ := permuteNrounds_eq m nr h0 h
  rw [e, Inplace32.permuteNrounds_eq m.A nr h0 h, ← hA]; rfl

/-- C63: the functions on bytes of the ARMv7-M file act on the byte array as documented. -/
theorem C63_access_armv7m : (access armv7m).Implements 200 (fun _ => True) view32 := implements7m

/-- C63: the functions on bytes of the ARMv7-A file act on the byte array as documented. -/
theorem C63_access_armv7a : (access armv7a).Implements 200 (fun _ => True) view32 := implements7a

/-! ## The implementation as SnP for the modes -/

/-- The implementation seen through its byte array, called with some contents of the registers and of the stack. -/
noncomputable def snp (r s : Nat → Word) (nr : Nat) : SnP :=
  ⟨200, fun b => ((permuteNrounds ⟨r, words32 b, s⟩ nr).map fun m => view32 m.A).getD b, none⟩

theorem computes (r s : Nat → Word) (nr : Nat) (h0 : 0 < nr) (hnr : nr ≤ 24) : Computes (snp r s nr) nr := by
  have key : (snp r s nr).permute = (Ref32.snp nr).permute := by
    funext b
    obtain ⟨m', e, hA⟩ := permuteNrounds_eq ⟨r, words32 b, s⟩ nr h0 hnr
    unfold snp Ref32.snp
    dsimp only
    rw [e, Option.map_some, Option.getD_some, hA]
  have h := Ref32.computes nr hnr
  exact ⟨⟨fun s hs => by rw [key]; exact h.valid.1 s hs, fun F hF => by cases hF⟩, rfl,
    fun s hs => by rw [key]; exact h.permute s hs⟩

/-- C63: SHA3-256 of every message, over the assembly. -/
theorem C63_SHA3_256 (r s : Nat → Word) (msg : Bytes) : ∃ o, KeccakHash.SHA3_256 (snp r s 24) msg = some (0, o) ∧
    Bits.ofBytes o = Spec.SHA3 Spec.KeccakP.keccakF 256 (Bits.ofBytes msg) :=
  (C10 (computes r s 24 (by decide) (by decide)) msg 0).2.1

/-! ## Concrete cases -/

-- a number of rounds that is not a multiple of four, from registers that are not zero
example (A : Words) : ∃ m', permuteNrounds ⟨fun i => BitVec.ofNat 32 i, A, fun _ => 7⟩ 18 = some m' ∧
    Bits.ofBytes (view32 m'.A) = Spec.KeccakP.keccakP 18 (Bits.ofBytes (view32 A)) :=
  (C63_permute_partial _).1 18 (by decide) (by decide)

-- interleaving
example : toBitInterleaving armv7a 0x0000000B 0x80000000 0 0 true = (0x00000001, 0x80000003) := by decide +kernel
example : fromBitInterleaving armv7m 0x00000001 0x80000003 = (0x0000000B, 0x80000000) := by decide +kernel

-- bytes in two lanes
example : ∃ A, (access armv7m).overwriteBytes (access armv7m).init [1, 2, 3, 4, 5] 6 5 = some A ∧ (view32 A).getD 9 0 = 4 := by
  obtain ⟨A, h1, _, h2⟩ := C63_access_armv7m.overwriteBytes (access armv7m).init [1, 2, 3, 4, 5] 6 5 trivial (by decide) (by decide)
  refine ⟨A, h1, ?_⟩
  rw [h2.2 9 (by rw [length_view32]; decide)]
  decide

end Arm32

end KeccakP1600
