import Verif.Proofs.KeccakArmv6mLoop
import Verif.Proofs.KeccakArmv6mBytes
import Verif.Props.KeccakP32

/-!
# Property C64: the in-place ARMv6-M implementation of Keccak-p[1600] in assembly

`Arm6` is a model of `KeccakP-1600-inplace-32bi-armv6m-le-gcc.s`, instruction by instruction.  The specifications are `Spec/KeccakP.lean` (FIPS 202) and
`Spec/ByteArray.lean` (the flat byte array).  `view32 A` is the byte array that the 50 words of the state represent; `C40_view32` says what it is, bit
by bit.  `enter r A s q` is the machine on entry: the contents `r` of the registers, `s` of the stack and `q` of `r5` do not matter, and `r0` is the
address of the state.  A result `some m` means that no word outside of the state, and no word at an address that is not a multiple of 4, was accessed.
-/

namespace KeccakP1600

namespace Arm6

/-- The machine on entry to the permutation. -/
def enter (r : Nat → Word) (A : Words) (s : Nat → Word) (q : Nat) : M := ⟨r, A, s, 0, q, true⟩

/-- C64: for 1 to 24 rounds, whatever the registers and the stack contain, the program computes Keccak-p[1600, nr], `r0` being at the end the address of
the state again, and so do the functions for 12 and 24 rounds. -/
theorem C64_permute_partial (r : Nat → Word) (A : Words) (s : Nat → Word) (q : Nat) :
    (∀ nr, 0 < nr → nr ≤ 24 → ∃ m', permuteNrounds (enter r A s q) nr = some m' ∧ m'.p = 0 ∧
      Bits.ofBytes (view32 m'.A) = Spec.KeccakP.keccakP nr (Bits.ofBytes (view32 A))) ∧
    (∃ m', permute24 (enter r A s q) = some m' ∧ m'.p = 0 ∧
      Bits.ofBytes (view32 m'.A) = Spec.KeccakP.keccakP 24 (Bits.ofBytes (view32 A))) ∧
    (∃ m', permute12 (enter r A s q) = some m' ∧ m'.p = 0 ∧
      Bits.ofBytes (view32 m'.A) = Spec.KeccakP.keccakP 12 (Bits.ofBytes (view32 A))) := by
  refine ⟨fun nr h0 h => ?_, ?_, ?_⟩
  · obtain ⟨m', e, a, hA⟩ := permuteNrounds_eq (enter r A s q) ⟨rfl, rfl⟩ nr h0 h
    exact ⟨m', e, a.1, by rw [hA]; exact (C37_ref32 A).1 nr h⟩
  · obtain ⟨m', e, a, hA⟩ := permute_eq (enter r A s q) ⟨rfl, rfl⟩ 24 (by omega) (by omega) rfl
    exact ⟨m', e, a.1, by rw [hA]; exact (C37_ref32 A).1 24 (by omega)⟩
  · obtain ⟨m', e, a, hA⟩ := permute_eq (enter r A s q) ⟨rfl, rfl⟩ 12 (by omega) (by omega) rfl
    exact ⟨m', e, a.1, by rw [hA]; exact (C37_ref32 A).1 12 (by omega)⟩

/-- C64, the corner: with `nr = 0` the program reads round constants past the end of its table, where Keccak-p[1600, 0] is the identity. -/
theorem C64_zero (m : M) : permuteNrounds m 0 = none ∧
    Spec.KeccakP.keccakP 0 (Bits.ofBytes (view32 m.A)) = Bits.ofBytes (view32 m.A) :=
  ⟨permuteNrounds_zero m, by
    have := (C37_ref32 m.A).1 0 (by omega)
    exact this.symm⟩

/-- C64: the words of the state after the call are those of the portable C implementation for 32-bit processors, so that the two may be exchanged
without converting the state. -/
theorem C64_same_words (r : Nat → Word) (A : Words) (s : Nat → Word) (q nr : Nat) (h0 : 0 < nr) (h : nr ≤ 24) :
    (permuteNrounds (enter r A s q) nr).map M.A = Inplace32.permuteNrounds A nr := by
  obtain ⟨m', e, _, hA⟩ := permuteNrounds_eq (enter r A s q) ⟨rfl, rfl⟩ nr h0 h
  rw [e, Inplace32.permuteNrounds_eq A nr h0 h]
  exact congrArg some hA

/-- C64: the functions on bytes act on the byte array as documented, wherever the buffers are. -/
theorem C64_access (ad out : Nat) : (access ad out).Implements 200 (fun _ => True) view32 := implements6m ad out

/-! ## The implementation as SnP for the modes -/

/-- The implementation seen through its byte array, called with some contents of the registers and of the stack. -/
noncomputable def snp (r s : Nat → Word) (q nr : Nat) : SnP :=
  ⟨200, fun b => ((permuteNrounds (enter r (words32 b) s q) nr).map fun m => view32 m.A).getD b, none⟩

theorem computes (r s : Nat → Word) (q nr : Nat) (h0 : 0 < nr) (hnr : nr ≤ 24) : Computes (snp r s q nr) nr := by
  have key : (snp r s q nr).permute = (Ref32.snp nr).permute := by
    funext b
    obtain ⟨m', e, _, hA⟩ := permuteNrounds_eq (enter r (words32 b) s q) ⟨rfl, rfl⟩ nr h0 hnr
    unfold snp Ref32.snp
    dsimp only
    rw [e, Option.map_some, Option.getD_some, hA]
    rfl
  have h := Ref32.computes nr hnr
  exact ⟨⟨fun s hs => by rw [key]; exact h.valid.1 s hs, fun F hF => by cases hF⟩, rfl,
    fun s hs => by rw [key]; exact h.permute s hs⟩

/-- C64: SHA3-256 of every message, over the assembly. -/
theorem C64_SHA3_256 (r s : Nat → Word) (q : Nat) (msg : Bytes) : ∃ o, KeccakHash.SHA3_256 (snp r s q 24) msg = some (0, o) ∧
    Bits.ofBytes o = Spec.SHA3 Spec.KeccakP.keccakF 256 (Bits.ofBytes msg) :=
  (C10 (computes r s q 24 (by decide) (by decide)) msg 0).2.1

/-! ## Concrete cases -/

-- a number of rounds that is not a multiple of four, from registers that are not zero
example (A : Words) : ∃ m', permuteNrounds (enter (fun i => BitVec.ofNat 32 i) A (fun _ => 7) 12) 18 = some m' ∧ m'.p = 0 ∧
    Bits.ofBytes (view32 m'.A) = Spec.KeccakP.keccakP 18 (Bits.ofBytes (view32 A)) :=
  (C64_permute_partial _ A _ _).1 18 (by decide) (by decide)

-- interleaving
example : toBitInterleaving addBytesMasks 0x0000000B 0x80000000 = (0x00000001, 0x80000003) := by decide +kernel
example : fromBitInterleaving extractBytesMasks 0x00000001 0x80000003 = (0x0000000B, 0x80000000) := by decide +kernel

-- bytes in two lanes, from an address that is not a multiple of 4
example : ∃ A, (access 3 1).overwriteBytes (access 3 1).init [1, 2, 3, 4, 5] 6 5 = some A ∧ (view32 A).getD 9 0 = 4 := by
  obtain ⟨A, h1, _, h2⟩ := (C64_access 3 1).overwriteBytes (access 3 1).init [1, 2, 3, 4, 5] 6 5 trivial (by decide) (by decide)
  refine ⟨A, h1, ?_⟩
  rw [h2.2 9 (by rw [length_view32]; decide)]
  decide

-- an access by words to a buffer at an address that is not a multiple of 4 is a fault
example : ldmBuf 3 [1, 2, 3, 4, 5, 6, 7, 8] 0 = none := by decide +kernel

end Arm6

end KeccakP1600
