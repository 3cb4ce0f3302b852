import Verif.Proofs.KeccakNeonBytes
import Verif.Props.KeccakPOpt

/-!
# Property C68: the ARMv7-A NEON implementation of Keccak-p[1600] in assembly

`KeccakNeon` is a model of `KeccakP-1600-armv7a-le-neon-gcc.s`, instruction by instruction.  The specifications are `Spec/KeccakP.lean` (FIPS 202) and
`Spec/ByteArray.lean` (the flat byte array).
-/

namespace KeccakNeon

open KeccakP1600 (Computes C37_ref Lane)

/-- C68: the byte access functions act on the 200 bytes of the state as documented. -/
theorem C68_access : access.Implements 200 (fun s => s.length = 200) id where
  length := fun s hs => hs
  init := by
    have : access.init = List.replicate 200 0 := by
      unfold access
      dsimp only
      rw [init_eq _ List.length_replicate, Option.getD_some]
    rw [this]
    exact ⟨List.length_replicate, rfl⟩
  addByte := by
    intro s b o hs ho
    have := Bytes.updated_xorAt s o 1 [b] (by simp)
    refine ⟨_, addByte_eq s hs b o ho, by rw [Bytes.length_xorAt]; exact hs, this.1, fun j hj => ?_⟩
    rw [show Bytes.xorAt s o [b] = Bytes.xorAt s o ([b].take 1) from rfl]
    refine (this.2 j hj).trans ?_
    split
    · rename_i hj; rw [show j - o = 0 by omega]; rfl
    · rfl
  addBytes := by
    intro s d o len hs h hd
    exact ⟨_, addBytes_eq s d hs o len h hd, by rw [Bytes.length_xorAt]; exact hs, Bytes.updated_xorAt _ o len d hd⟩
  overwriteBytes := by
    intro s d o len hs h hd
    exact ⟨_, overwriteBytes_eq s d hs o len h hd, by rw [Bytes.length_setAt]; exact hs, Bytes.updated_setAt _ o len d hd⟩
  overwriteWithZeroes := by
    intro s n hs h
    exact ⟨_, overwriteWithZeroes_eq s hs n h, by rw [Bytes.length_setAt]; exact hs, Bytes.updated_zeroes _ n⟩
  extractBytes := by
    intro s o len hs h
    exact ⟨_, extractBytes_eq s hs o len h, Bytes.slice_spec _ o len (by show o + len ≤ s.length; rw [hs]; exact h)⟩
  extractAndAddBytes := by
    intro s d o len hs h hd
    exact ⟨_, extractAndAddBytes_eq s d hs o len h hd, Bytes.xor_slice_spec _ d o len (by show o + len ≤ s.length; rw [hs]; exact h) hd⟩

/-- C68: the function that clears the state does so whatever is in the memory before. -/
theorem C68_initialize (m : Bytes) (h : m.length = 200) : KeccakNeon.init m = some (List.replicate 200 0) := init_eq m h

/-- C68: the three permutation functions are defined on states of 200 bytes and are KECCAK-p[1600, nr] of FIPS 202, for 1 to 24 rounds.  Partial: the
claim for every number of rounds up to 24 is false for no rounds (`C68_permute_zero`). -/
theorem C68_permute_partial (d : Nat → Lane) (s : Bytes) (hs : s.length = 200) :
    (∀ nr, 0 < nr → nr ≤ 24 → ∃ t, permuteNrounds d s nr = some t ∧ t.length = 200 ∧
      Bits.ofBytes t = Spec.KeccakP.keccakP nr (Bits.ofBytes s)) ∧
    (∃ t, permute24 d s = some t ∧ t.length = 200 ∧ Bits.ofBytes t = Spec.KeccakP.keccakP 24 (Bits.ofBytes s)) ∧
    (∃ t, permute12 d s = some t ∧ t.length = 200 ∧ Bits.ofBytes t = Spec.KeccakP.keccakP 12 (Bits.ofBytes s)) :=
  ⟨fun nr h0 h => ⟨_, permuteNrounds_eq d s nr h0 h, C37_ref nr h s hs⟩, ⟨_, permute_eq d s 24 (by decide) (by decide), C37_ref 24 (by decide) s hs⟩,
    ⟨_, permute_eq d s 12 (by decide) (by decide), C37_ref 12 (by decide) s hs⟩⟩

/-- C68: with no rounds the loop, which tests the counter after the round, reads a constant behind the table. -/
theorem C68_permute_zero (d : Nat → Lane) (s : Bytes) : permuteNrounds d s 0 = none := by
  obtain ⟨m, h1, z, c, -⟩ := loadState_eq d s 192
  obtain ⟨m1, e1, -, c1, -⟩ := theta_eq m z
  have hr : (chiPlanes (rhoPi m1)).r1 = 192 := by rw [(chiPlanes_r _).2, (rhoPi_r _).2, c1, c]
  have h : keccakRound m = none := by
    unfold keccakRound
    simp only [Option.bind_eq_bind]
    rw [← Option.bind_assoc, e1, Option.bind_some]
    exact chiIota_none _ hr
  show permute d s 192 0 = none
  unfold permute
  rw [h1, Option.bind_eq_bind, Option.bind_some, show (2 : Nat) ^ 32 = (2 ^ 32 - 1) + 1 from rfl, roundLoop, h]
  rfl

/-- The implementation as an SnP, with the given permutation; there is no fast loop. -/
def snp (permute : Bytes → Option Bytes) : SnP where
  width := 200
  permute := fun s => (permute s).getD s
  fast := none

/-- C68: the modes can be built on the functions with 24 and with 12 rounds. -/
theorem C68_computes (d : Nat → Lane) : Computes (snp (permute24 d)) 24 ∧ Computes (snp (permute12 d)) 12 := by
  have main : ∀ (nr : Nat) (p : Bytes → Option Bytes), nr ≤ 24 →
      (∀ s : Bytes, s.length = 200 → p s = some (KeccakP1600.Ref.permuteNrounds nr s)) → Computes (snp p) nr := by
    intro nr p hnr hp
    have key : ∀ s : Bytes, s.length = 200 → (snp p).permute s = KeccakP1600.Ref.permuteNrounds nr s := by
      intro s hs
      change (p s).getD s = _
      rw [hp s hs, Option.getD_some]
    refine ⟨⟨fun s hs => by rw [key s hs]; exact (C37_ref nr hnr s hs).1, fun F hF => nomatch hF⟩, rfl, fun s hs => ?_⟩
    rw [key s hs]; exact ((C37_ref nr hnr s hs).2).symm
  exact ⟨main 24 _ (by decide) fun s hs => permute_eq d s 24 (by decide) (by decide),
    main 12 _ (by decide) fun s hs => permute_eq d s 12 (by decide) (by decide)⟩

/-! ## Concrete cases -/

-- SHA3-256, with arbitrary values in the registers
example : ∃ o, KeccakHash.SHA3_256 (snp (permute24 fun _ => 0x123456789ABCDEF0)) [0x61, 0x62, 0x63] = some (0, o) ∧
    Bits.ofBytes o = Spec.SHA3 Spec.KeccakP.keccakF 256 (Bits.ofBytes [0x61, 0x62, 0x63]) :=
  (KeccakP1600.C10 (C68_computes _).1 _ 0).2.1

-- a single round, the last one of the permutation
example : ∃ t, permuteNrounds (fun i => i) (List.replicate 200 0x5A) 1 = some t ∧ t.length = 200 ∧
    Bits.ofBytes t = Spec.KeccakP.keccakP 1 (Bits.ofBytes (List.replicate 200 0x5A)) :=
  (C68_permute_partial (fun i => i) _ List.length_replicate).1 1 (by decide) (by decide)

-- byte access with an unaligned offset, with both loops: nine lanes and 2 bytes
example : ∃ t, access.addBytes access.init (List.replicate 74 0xFF) 7 74 = some t ∧
    t.getD 6 0 = 0 ∧ t.getD 7 0 = 0xFF ∧ t.getD 80 0 = 0xFF ∧ t.getD 81 0 = 0 := by
  obtain ⟨t, h1, _, h2⟩ := C68_access.addBytes access.init (List.replicate 74 0xFF) 7 74
    C68_access.init.1 (by decide) (by rw [List.length_replicate])
  have h3 : ∀ j, j < 200 → _ := fun j hj => h2.2 j (by rw [C68_access.init.2, List.length_replicate]; exact hj)
  rw [C68_access.init.2] at h3
  exact ⟨t, h1, (h3 6 (by decide)).trans (by decide +kernel), (h3 7 (by decide)).trans (by decide +kernel),
    (h3 80 (by decide)).trans (by decide +kernel), (h3 81 (by decide)).trans (by decide +kernel)⟩

end KeccakNeon
