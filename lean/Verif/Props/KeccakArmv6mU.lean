import Verif.Proofs.KeccakArmv6mULoop
import Verif.Props.KeccakArmv6m

/-!
# Property C65: the ARMv6-M implementations of Keccak-p[1600] in assembly with a second state on the stack

`Arm6U.U1` and `Arm6U.U2` are models of the permutations of `KeccakP-1600-u1-32bi-armv6m-le-gcc.s` and
`KeccakP-1600-u2-32bi-armv6m-le-gcc.s`, instruction by instruction.  The specification is `Spec/KeccakP.lean` (FIPS 202).  `view32 A` is the byte array
that the 50 words of the state represent.  `enter r A s p5 p7` is the machine on entry: the contents of the registers and of the stack do not matter, and
`r0` is the address of the state.  A result `some m` means that no word outside of the two states and of the table of the constants was accessed.  The
functions on bytes are those of `Arm6`, of which `C64_access` speaks.
-/

namespace KeccakP1600

namespace Arm6U

/-- The machine on entry to the permutation. -/
def enter (r : Nat → Word) (A : Words) (s : Nat → Word) (p5 p7 : Ptr) : M := ⟨r, A, s, ⟨false, 0⟩, p5, p7, true⟩

/-- What a permutation `f` of the number of rounds does, on entry and at the end: it computes Keccak-p[1600, nr] on the state of the caller, and `r0` is at
the end the address of that state, which the functions that absorb several blocks rely on. -/
def Permutes (f : M → Option M) (nr : Nat) : Prop := ∀ r A s p5 p7, ∃ m', f (enter r A s p5 p7) = some m' ∧ m'.p0 = ⟨false, 0⟩ ∧
  Bits.ofBytes (view32 m'.A) = Spec.KeccakP.keccakP nr (Bits.ofBytes (view32 A))

/-- C65: the program with one round in its loop, for 1 to 24 rounds, odd or even, and the functions for 12 and 24 rounds. -/
theorem C65_u1_partial : (∀ nr, 0 < nr → nr ≤ 24 → Permutes (fun m => U1.permuteNrounds m nr) nr) ∧ Permutes U1.permute24 24 ∧
    Permutes U1.permute12 12 := by
  refine ⟨fun nr h0 h r A s p5 p7 => ?_, fun r A s p5 p7 => ?_, fun r A s p5 p7 => ?_⟩
  · obtain ⟨m', e, hA, hp⟩ := U1.permuteNrounds_eq (enter r A s p5 p7) rfl rfl nr h0 h
    exact ⟨m', e, hp, by rw [hA]; exact (C37_ref32 A).1 nr h⟩
  · obtain ⟨m', e, hA, hp⟩ := U1.permute_eq (adrR1 0 (enter r A s p5 p7)) rfl rfl 24 (by omega) (by omega) rfl rfl
    exact ⟨m', e, hp, by rw [hA]; exact (C37_ref32 A).1 24 (by omega)⟩
  · obtain ⟨m', e, hA, hp⟩ := U1.permute_eq (adrR1 roundConstants12 (enter r A s p5 p7)) rfl rfl 12 (by omega) (by omega) rfl rfl
    exact ⟨m', e, hp, by rw [hA]; exact (C37_ref32 A).1 12 (by omega)⟩

/-- C65: the program with two rounds in its loop, for 1 to 24 rounds, odd or even, and the functions for 12 and 24 rounds. -/
theorem C65_u2_partial : (∀ nr, 0 < nr → nr ≤ 24 → Permutes (fun m => U2.permuteNrounds m nr) nr) ∧ Permutes U2.permute24 24 ∧
    Permutes U2.permute12 12 := by
  refine ⟨fun nr h0 h r A s p5 p7 => ?_, fun r A s p5 p7 => ?_, fun r A s p5 p7 => ?_⟩
  · obtain ⟨m', e, hA, hp⟩ := U2.permuteNrounds_eq (enter r A s p5 p7) rfl rfl nr h0 h
    exact ⟨m', e, hp, by rw [hA]; exact (C37_ref32 A).1 nr h⟩
  · obtain ⟨m', e, hA, hp⟩ := U2.permute_eq (adrR1 0 (enter r A s p5 p7)) rfl rfl 24 (by omega) (by omega) rfl rfl
    exact ⟨m', e, hp, by rw [hA]; exact (C37_ref32 A).1 24 (by omega)⟩
  · obtain ⟨m', e, hA, hp⟩ := U2.permute_eq (adrR1 roundConstants12 (enter r A s p5 p7)) rfl rfl 12 (by omega) (by omega) rfl rfl
    exact ⟨m', e, hp, by rw [hA]; exact (C37_ref32 A).1 12 (by omega)⟩

/-- C65, the corner: with `nr = 0` both programs read round constants past the end of their table, where Keccak-p[1600, 0] is the identity. -/
theorem C65_zero (r : Nat → Word) (A : Words) (s : Nat → Word) (p5 p7 : Ptr) :
    U1.permuteNrounds (enter r A s p5 p7) 0 = none ∧ U2.permuteNrounds (enter r A s p5 p7) 0 = none ∧
    Spec.KeccakP.keccakP 0 (Bits.ofBytes (view32 A)) = Bits.ofBytes (view32 A) :=
  ⟨U1.permuteNrounds_zero _ rfl rfl, U2.permuteNrounds_zero _ rfl rfl, ((C37_ref32 A).1 0 (by omega)).symm⟩

/-- C65: the two programs and the one in place leave the same words, so that they may be exchanged without converting the state. -/
theorem C65_same_words (r : Nat → Word) (A : Words) (s : Nat → Word) (p5 p7 : Ptr) (nr : Nat) (h0 : 0 < nr) (h : nr ≤ 24) :
    (U1.permuteNrounds (enter r A s p5 p7) nr).map M.A = (Arm6.permuteNrounds (Arm6.enter r A s 0) nr).map Arm6.M.A ∧
    (U2.permuteNrounds (enter r A s p5 p7) nr).map M.A = (Arm6.permuteNrounds (Arm6.enter r A s 0) nr).map Arm6.M.A := by
  obtain ⟨m0, e0, _, h0A⟩ := Arm6.permuteNrounds_eq (Arm6.enter r A s 0) ⟨rfl, rfl⟩ nr h0 h
  obtain ⟨m1, e1, h1A, _⟩ := U1.permuteNrounds_eq (enter r A s p5 p7) rfl rfl nr h0 h
  obtain ⟨m2, e2, h2A, _⟩ := U2.permuteNrounds_eq (enter r A s p5 p7) rfl rfl nr h0 h
  rw [e0, e1, e2]
  exact ⟨congrArg some (h1A.trans h0A.symm), congrArg some (h2A.trans h0A.symm)⟩

/-! ## The implementations as SnP for the modes -/

/-- An implementation seen through its byte array, called with some contents of the registers and of the stack. -/
noncomputable def snp (f : M → Option M) (r s : Nat → Word) (p5 p7 : Ptr) : SnP :=
  ⟨200, fun b => ((f (enter r (words32 b) s p5 p7)).map fun m => view32 m.A).getD b, none⟩

/-- with the words of the reference implementation, all that the modes need -/
theorem computes (f : M → Option M) (r s : Nat → Word) (p5 p7 : Ptr) (nr : Nat) (hnr : nr ≤ 24)
    (hf : ∀ A, ∃ m', f (enter r A s p5 p7) = some m' ∧ m'.A = Ref32.permuteNrounds nr A) : Computes (snp f r s p5 p7) nr := by
  have key : (snp f r s p5 p7).permute = (Ref32.snp nr).permute := by
    funext b
    obtain ⟨m', e, hA⟩ := hf (words32 b)
    unfold snp Ref32.snp
    dsimp only
    rw [e, Option.map_some, Option.getD_some, hA]
  have h := Ref32.computes nr hnr
  exact ⟨⟨fun s hs => by rw [key]; exact h.valid.1 s hs, fun F hF => by cases hF⟩, rfl,
    fun s hs => by rw [key]; exact h.permute s hs⟩

/-- C65: SHA3-256 of every message, over each of the two programs. -/
theorem C65_SHA3_256 (r s : Nat → Word) (p5 p7 : Ptr) (msg : Bytes) :
    (∃ o, KeccakHash.SHA3_256 (snp U1.permute24 r s p5 p7) msg = some (0, o) ∧
      Bits.ofBytes o = Spec.SHA3 Spec.KeccakP.keccakF 256 (Bits.ofBytes msg)) ∧
    (∃ o, KeccakHash.SHA3_256 (snp U2.permute24 r s p5 p7) msg = some (0, o) ∧
      Bits.ofBytes o = Spec.SHA3 Spec.KeccakP.keccakF 256 (Bits.ofBytes msg)) := by
  refine ⟨(C10 (computes U1.permute24 r s p5 p7 24 (by decide) fun A => ?_) msg 0).2.1,
    (C10 (computes U2.permute24 r s p5 p7 24 (by decide) fun A => ?_) msg 0).2.1⟩
  · obtain ⟨m', e, hA, _⟩ := U1.permute_eq (adrR1 0 (enter r A s p5 p7)) rfl rfl 24 (by omega) (by omega) rfl rfl
    exact ⟨m', e, hA⟩
  · obtain ⟨m', e, hA, _⟩ := U2.permute_eq (adrR1 0 (enter r A s p5 p7)) rfl rfl 24 (by omega) (by omega) rfl rfl
    exact ⟨m', e, hA⟩

/-! ## Concrete cases -/

-- an odd number of rounds, from registers and a stack that are not zero
example (A : Words) : ∃ m', U1.permuteNrounds (enter (fun i => BitVec.ofNat 32 i) A (fun _ => 7) ⟨true, 3⟩ ⟨false, 5⟩) 7 = some m' ∧ m'.p0 = ⟨false, 0⟩ ∧
    Bits.ofBytes (view32 m'.A) = Spec.KeccakP.keccakP 7 (Bits.ofBytes (view32 A)) :=
  C65_u1_partial.1 7 (by decide) (by decide) _ A _ _ _
example (A : Words) : ∃ m', U2.permuteNrounds (enter (fun i => BitVec.ofNat 32 i) A (fun _ => 7) ⟨true, 3⟩ ⟨false, 5⟩) 7 = some m' ∧ m'.p0 = ⟨false, 0⟩ ∧
    Bits.ofBytes (view32 m'.A) = Spec.KeccakP.keccakP 7 (Bits.ofBytes (view32 A)) :=
  C65_u2_partial.1 7 (by decide) (by decide) _ A _ _ _

-- a word outside of the state is not accessed silently
example (m : M) : (ldr 1 ⟨true, 30⟩ 20 m).ok = false := rfl

end Arm6U

end KeccakP1600
