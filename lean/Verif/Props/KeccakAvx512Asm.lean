import Verif.Proofs.KeccakAvx512Fast
import Verif.Props.KeccakPOpt

/-!
# Property C57: the AVX-512 implementation of Keccak-p[1600] in assembly

`Avx512Asm` is a model of `KeccakP-1600-AVX512.s`, instruction by instruction.  The specifications are `Spec/KeccakP.lean` (FIPS 202),
`Spec/ByteArray.lean` (the flat byte array) and `SnP.absorbBlocks` (the contract of the fast loops).
-/

namespace Avx512Asm

open KeccakP1600 (Computes C37_ref)

/-- C57: the byte access functions act on the 200 bytes of the state as documented. -/
theorem C57_access : access.Implements 200 (fun s => s.length = 200) id where
  length := fun s hs => hs
  init := by
    have : access.init = List.replicate 200 0 := by
      unfold access
      dsimp only
      rw [init_eq _ List.length_replicate, Option.getD_some]
    rw [this]
    exact ⟨List.length_replicate, rfl⟩
  addByte := by
    intro s b o hs ho
    have := Bytes.updated_xorAt s o 1 [b] (by simp)
    refine ⟨_, addByte_eq s hs b o ho, by rw [Bytes.length_xorAt]; exact hs, this.1, fun j hj => ?_⟩
    rw [show Bytes.xorAt s o [b] = Bytes.xorAt s o ([b].take 1) from rfl]
    refine (this.2 j hj).trans ?_
    split
    · rename_i hj; rw [show j - o = 0 by omega]; rfl
    · rfl
  addBytes := by
    intro s d o len hs h hd
    obtain ⟨t, h1, h2, h3⟩ := writeBytes_eq .xor s d hs o len h hd
    exact ⟨t, h1, h2, by rw [h3]; exact Bytes.updated_xorAt _ o len d hd⟩
  overwriteBytes := by
    intro s d o len hs h hd
    obtain ⟨t, h1, h2, h3⟩ := writeBytes_eq .mov s d hs o len h hd
    exact ⟨t, h1, h2, by rw [h3]; exact Bytes.updated_setAt _ o len d hd⟩
  overwriteWithZeroes := by
    intro s n hs h
    exact ⟨_, overwriteWithZeroes_eq s hs n h, by rw [Bytes.length_setAt]; exact hs, Bytes.updated_zeroes _ n⟩
  extractBytes := by
    intro s o len hs h
    exact ⟨_, extractBytes_eq s hs o len h, Bytes.slice_spec _ o len (by show o + len ≤ s.length; rw [hs]; exact h)⟩
  extractAndAddBytes := by
    intro s d o len hs h hd
    exact ⟨_, extractAndAddBytes_eq s d hs o len h hd, Bytes.xor_slice_spec _ d o len (by show o + len ≤ s.length; rw [hs]; exact h) hd⟩

/-- C57: the function that clears the state does so whatever is in the memory before. -/
theorem C57_initialize (m : Bytes) (h : m.length = 200) : Avx512Asm.init m = some (List.replicate 200 0) := init_eq m h

/-- C57: the three permutation functions are defined on states of 200 bytes and are KECCAK-p[1600, nr] of FIPS 202, for every number of rounds up to
24, none included. -/
theorem C57_permute (s : Bytes) (hs : s.length = 200) :
    (∀ nr, nr ≤ 24 → ∃ t, permuteNrounds s nr = some t ∧ t.length = 200 ∧
      Bits.ofBytes t = Spec.KeccakP.keccakP nr (Bits.ofBytes s)) ∧
    (∃ t, permute24 s = some t ∧ t.length = 200 ∧ Bits.ofBytes t = Spec.KeccakP.keccakP 24 (Bits.ofBytes s)) ∧
    (∃ t, permute12 s = some t ∧ t.length = 200 ∧ Bits.ofBytes t = Spec.KeccakP.keccakP 12 (Bits.ofBytes s)) :=
  ⟨fun nr h => ⟨_, permuteNrounds_eq nr h s hs, C37_ref nr h s hs⟩, ⟨_, permute24_eq s hs, C37_ref 24 (by decide) s hs⟩,
    ⟨_, permute12_eq s hs, C37_ref 12 (by decide) s hs⟩⟩

/-- C57: the fast loops return the number of bytes in whole blocks and leave the state that repeated addition of a block and permutation gives; any
number of lanes from 1 to 25, all data. -/
theorem C57_fastLoop (s : Bytes) (hs : s.length = 200) (n : Nat) (h0 : 0 < n) (hn : n ≤ 25) (data : Bytes) :
    fastLoop24 s n data = some (SnP.absorbBlocks (KeccakP1600.Ref.permuteNrounds 24) (n * 8) (data.length / (n * 8)) s data,
      data.length / (n * 8) * (n * 8)) ∧
    fastLoop12 s n data = some (SnP.absorbBlocks (KeccakP1600.Ref.permuteNrounds 12) (n * 8) (data.length / (n * 8)) s data,
      data.length / (n * 8) * (n * 8)) :=
  ⟨fastLoop_eq 11 (by decide) permute24 permute24_eq s hs n h0 hn data, fastLoop_eq 5 (by decide) permute12 permute12_eq s hs n h0 hn data⟩

/-- The implementation as an SnP, with the given functions. -/
def snp (permute : Bytes → Option Bytes) (fast : Bytes → Nat → Bytes → Option (Bytes × Nat)) : SnP where
  width := 200
  permute := fun s => (permute s).getD s
  fast := some fun s n data => (fast s n data).getD (s, 0)

/-- C57: the modes can be built on the 24-round functions and those with 12 rounds. -/
theorem C57_computes : Computes (snp permute24 fastLoop24) 24 ∧ Computes (snp permute12 fastLoop12) 12 := by
  have main : ∀ (nr : Nat) (p : Bytes → Option Bytes) (f : Bytes → Nat → Bytes → Option (Bytes × Nat)), nr ≤ 24 →
      (∀ s : Bytes, s.length = 200 → p s = some (KeccakP1600.Ref.permuteNrounds nr s)) →
      (∀ s : Bytes, s.length = 200 → ∀ n, 0 < n → n ≤ 25 → ∀ data, f s n data =
        some (SnP.absorbBlocks (KeccakP1600.Ref.permuteNrounds nr) (n * 8) (data.length / (n * 8)) s data, data.length / (n * 8) * (n * 8))) →
      Computes (snp p f) nr := by
    intro nr p f hnr hp hf
    have key : ∀ s : Bytes, s.length = 200 → (snp p f).permute s = KeccakP1600.Ref.permuteNrounds nr s := by
      intro s hs
      change (p s).getD s = _
      rw [hp s hs, Option.getD_some]
    have hlen : ∀ s : Bytes, s.length = 200 → (KeccakP1600.Ref.permuteNrounds nr s).length = 200 := fun s hs => (C37_ref nr hnr s hs).1
    have hL : (snp p f).laneBytes = 8 := by simp [SnP.laneBytes, snp]
    refine ⟨⟨fun s hs => by rw [key s hs]; exact hlen s hs, ?_⟩, rfl, fun s hs => ?_⟩
    · intro F hF s n data hs h0 hn
      rw [hL] at h0 hn
      change n * 8 ≤ 200 at hn
      cases hF
      change (f s n data).getD (s, 0) = _
      rw [hf s hs n (by omega) (by omega) data, Option.getD_some, hL, KeccakP1600.absorbBlocks_congr key hlen _ _ _ _ hs]
    · rw [key s hs]; exact ((C37_ref nr hnr s hs).2).symm
  exact ⟨main 24 _ _ (by decide) permute24_eq fun s hs n h0 hn data => (C57_fastLoop s hs n h0 hn data).1,
    main 12 _ _ (by decide) permute12_eq fun s hs n h0 hn data => (C57_fastLoop s hs n h0 hn data).2⟩

/-! ## Concrete cases -/

-- SHA3-256
example : ∃ o, KeccakHash.SHA3_256 (snp permute24 fastLoop24) [0x61, 0x62, 0x63] = some (0, o) ∧
    Bits.ofBytes o = Spec.SHA3 Spec.KeccakP.keccakF 256 (Bits.ofBytes [0x61, 0x62, 0x63]) :=
  (KeccakP1600.C10 C57_computes.1 _ 0).2.1

-- two blocks of 17 lanes, the path with the state in registers, with a remainder of 3 bytes
example : ∃ t, fastLoop24 (List.replicate 200 0) 17 (List.replicate 275 0xA5) = some (t, 272) := by
  have h := (C57_fastLoop (List.replicate 200 0) List.length_replicate 17 (by decide) (by decide) (List.replicate 275 0xA5)).1
  rw [List.length_replicate] at h
  exact ⟨_, h⟩

-- an odd number of rounds, which takes the path with the single round
example : ∃ t, permuteNrounds (List.replicate 200 0x5A) 13 = some t ∧ t.length = 200 ∧
    Bits.ofBytes t = Spec.KeccakP.keccakP 13 (Bits.ofBytes (List.replicate 200 0x5A)) :=
  (C57_permute _ List.length_replicate).1 13 (by decide)

-- byte access with an unaligned offset: bytes up to the lane, whole lanes and a byte
example : ∃ t, access.addBytes access.init (List.replicate 74 0xFF) 7 74 = some t ∧
    t.getD 6 0 = 0 ∧ t.getD 7 0 = 0xFF ∧ t.getD 80 0 = 0xFF ∧ t.getD 81 0 = 0 := by
  obtain ⟨t, h1, _, h2⟩ := C57_access.addBytes access.init (List.replicate 74 0xFF) 7 74
    C57_access.init.1 (by decide) (by rw [List.length_replicate])
  have h3 : ∀ j, j < 200 → _ := fun j hj => h2.2 j (by rw [C57_access.init.2, List.length_replicate]; exact hj)
  rw [C57_access.init.2] at h3
  exact ⟨t, h1, (h3 6 (by decide)).trans (by decide +kernel), (h3 7 (by decide)).trans (by decide +kernel),
    (h3 80 (by decide)).trans (by decide +kernel), (h3 81 (by decide)).trans (by decide +kernel)⟩

end Avx512Asm
