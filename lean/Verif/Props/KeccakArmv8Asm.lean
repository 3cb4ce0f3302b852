import Verif.Proofs.KeccakArmv8Bytes
import Verif.Props.KeccakPOpt

/-!
# Property C60: the ARMv8-A implementation of Keccak-p[1600] in assembly

`Armv8Asm` is a model of `KeccakP-1600-armv8a-neon.s`, instruction by instruction.  The specifications are `Spec/KeccakP.lean` (FIPS 202) and
`Spec/ByteArray.lean` (the flat byte array).
-/

namespace Armv8Asm

open KeccakP1600 (Computes C37_ref Lane)

/-- C60: the byte access functions act on the 200 bytes of the state as documented. -/
theorem C60_access : access.Implements 200 (fun s => s.length = 200) id where
  length := fun s hs => hs
  init := by
    have : access.init = List.replicate 200 0 := by
      unfold access
      dsimp only
      rw [init_eq _ List.length_replicate, Option.getD_some]
    rw [this]
    exact ⟨List.length_replicate, rfl⟩
  addByte := by
    intro s b o hs ho
    have := Bytes.updated_xorAt s o 1 [b] (by simp)
    refine ⟨_, addByte_eq s hs b o ho, by rw [Bytes.length_xorAt]; exact hs, this.1, fun j hj => ?_⟩
    rw [show Bytes.xorAt s o [b] = Bytes.xorAt s o ([b].take 1) from rfl]
    refine (this.2 j hj).trans ?_
    split
    · rename_i hj; rw [show j - o = 0 by omega]; rfl
    · rfl
  addBytes := by
    intro s d o len hs h hd
    exact ⟨_, addBytes_eq s d hs o len h hd, by rw [Bytes.length_xorAt]; exact hs, Bytes.updated_xorAt _ o len d hd⟩
  overwriteBytes := by
    intro s d o len hs h hd
    exact ⟨_, overwriteBytes_eq s d hs o len h hd, by rw [Bytes.length_setAt]; exact hs, Bytes.updated_setAt _ o len d hd⟩
  overwriteWithZeroes := by
    intro s n hs h
    exact ⟨_, overwriteWithZeroes_eq s hs n h, by rw [Bytes.length_setAt]; exact hs, Bytes.updated_zeroes _ n⟩
  extractBytes := by
    intro s o len hs h
    exact ⟨_, extractBytes_eq s hs o len h, Bytes.slice_spec _ o len (by show o + len ≤ s.length; rw [hs]; exact h)⟩
  extractAndAddBytes := by
    intro s d o len hs h hd
    exact ⟨_, extractAndAddBytes_eq s d hs o len h hd, Bytes.xor_slice_spec _ d o len (by show o + len ≤ s.length; rw [hs]; exact h) hd⟩

/-- C60: the function that clears the state does so whatever is in the memory before. -/
theorem C60_initialize (m : Bytes) (h : m.length = 200) : Armv8Asm.init m = some (List.replicate 200 0) := init_eq m h

/-- C60: the three permutation functions are defined on states of 200 bytes and are KECCAK-p[1600, nr] of FIPS 202, for 1 to 24 rounds.  Partial: the
claim for every number of rounds up to 24 is false for no rounds (`C60_permute_zero`). -/
theorem C60_permute_partial (junk : Lane) (s : Bytes) (hs : s.length = 200) :
    (∀ nr, 0 < nr → nr ≤ 24 → ∃ t, permuteNrounds junk s nr = some t ∧ t.length = 200 ∧
      Bits.ofBytes t = Spec.KeccakP.keccakP nr (Bits.ofBytes s)) ∧
    (∃ t, permute24 junk s = some t ∧ t.length = 200 ∧ Bits.ofBytes t = Spec.KeccakP.keccakP 24 (Bits.ofBytes s)) ∧
    (∃ t, permute12 junk s = some t ∧ t.length = 200 ∧ Bits.ofBytes t = Spec.KeccakP.keccakP 12 (Bits.ofBytes s)) :=
  ⟨fun nr h0 h => ⟨_, permuteNrounds_eq junk s hs nr h0 h, C37_ref nr h s hs⟩, ⟨_, permute_eq junk s hs 24 (by decide) (by decide), C37_ref 24 (by decide) s hs⟩,
    ⟨_, permute_eq junk s hs 12 (by decide) (by decide), C37_ref 12 (by decide) s hs⟩⟩

/-- C60: with no rounds the loop, which tests the counter after the round, reads a constant behind the table. -/
theorem C60_permute_zero (junk : Lane) (s : Bytes) : permuteNrounds junk s 0 = none := by
  have h : ∀ r, roundLoop (2 ^ 32) 192 0 r = none := by
    intro r
    rw [show (2 : Nat) ^ 32 = (2 ^ 32 - 1) + 1 from rfl, roundLoop, show X86.rd64 constantBytes 192 = none from by decide +kernel]
    rfl
  show permute junk s 192 0 = none
  unfold permute
  cases loadState junk s with
  | none => rfl
  | some r =>
    rw [Option.bind_eq_bind, Option.bind_some, h]
    rfl

/-- The implementation as an SnP, with the given permutation; there is no fast loop. -/
def snp (permute : Bytes → Option Bytes) : SnP where
  width := 200
  permute := fun s => (permute s).getD s
  fast := none

/-- C60: the modes can be built on the functions with 24 and with 12 rounds. -/
theorem C60_computes (junk : Lane) : Computes (snp (permute24 junk)) 24 ∧ Computes (snp (permute12 junk)) 12 := by
  have main : ∀ (nr : Nat) (p : Bytes → Option Bytes), nr ≤ 24 →
      (∀ s : Bytes, s.length = 200 → p s = some (KeccakP1600.Ref.permuteNrounds nr s)) → Computes (snp p) nr := by
    intro nr p hnr hp
    have key : ∀ s : Bytes, s.length = 200 → (snp p).permute s = KeccakP1600.Ref.permuteNrounds nr s := by
      intro s hs
      change (p s).getD s = _
      rw [hp s hs, Option.getD_some]
    refine ⟨⟨fun s hs => by rw [key s hs]; exact (C37_ref nr hnr s hs).1, fun F hF => nomatch hF⟩, rfl, fun s hs => ?_⟩
    rw [key s hs]; exact ((C37_ref nr hnr s hs).2).symm
  exact ⟨main 24 _ (by decide) fun s hs => permute_eq junk s hs 24 (by decide) (by decide),
    main 12 _ (by decide) fun s hs => permute_eq junk s hs 12 (by decide) (by decide)⟩

/-! ## Concrete cases -/

-- SHA3-256, with an arbitrary value in the unused half of v31
example : ∃ o, KeccakHash.SHA3_256 (snp (permute24 0x123456789ABCDEF0)) [0x61, 0x62, 0x63] = some (0, o) ∧
    Bits.ofBytes o = Spec.SHA3 Spec.KeccakP.keccakF 256 (Bits.ofBytes [0x61, 0x62, 0x63]) :=
  (KeccakP1600.C10 (C60_computes _).1 _ 0).2.1

-- a single round, the last one of the permutation
example : ∃ t, permuteNrounds 7 (List.replicate 200 0x5A) 1 = some t ∧ t.length = 200 ∧
    Bits.ofBytes t = Spec.KeccakP.keccakP 1 (Bits.ofBytes (List.replicate 200 0x5A)) :=
  (C60_permute_partial 7 _ List.length_replicate).1 1 (by decide) (by decide)

-- byte access with an unaligned offset, with all three loops: 64 bytes, a lane and 2 bytes
example : ∃ t, access.addBytes access.init (List.replicate 74 0xFF) 7 74 = some t ∧
    t.getD 6 0 = 0 ∧ t.getD 7 0 = 0xFF ∧ t.getD 80 0 = 0xFF ∧ t.getD 81 0 = 0 := by
  obtain ⟨t, h1, _, h2⟩ := C60_access.addBytes access.init (List.replicate 74 0xFF) 7 74
    C60_access.init.1 (by decide) (by rw [List.length_replicate])
  have h3 : ∀ j, j < 200 → _ := fun j hj => h2.2 j (by rw [C60_access.init.2, List.length_replicate]; exact hj)
  rw [C60_access.init.2] at h3
  exact ⟨t, h1, (h3 6 (by decide)).trans (by decide +kernel), (h3 7 (by decide)).trans (by decide +kernel),
    (h3 80 (by decide)).trans (by decide +kernel), (h3 81 (by decide)).trans (by decide +kernel)⟩

end Armv8Asm
