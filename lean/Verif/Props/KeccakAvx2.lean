import Verif.Proofs.KeccakAvx2Fast
import Verif.Props.KeccakPOpt

/-!
# Property C56: the AVX2 implementation of Keccak-p[1600] in assembly

`Avx2Asm` is a model of `KeccakP-1600-AVX2.s`, instruction by instruction.  The specifications are `Spec/Avx2Layout.lean` (the order of the lanes in
memory, as the header declares the structure), `Spec/KeccakP.lean` (FIPS 202), `Spec/ByteArray.lean` (the flat byte array) and `SnP.absorbBlocks`
(the contract of the fast loops).
-/

namespace Avx2Asm

open KeccakP1600 (Computes C37_ref)
open Avx2Layout (view lay)

/-- C56: the order in memory is a permutation of the bytes: a state in the usual order has one structure in memory and only one. -/
theorem C56_layout : (∀ s : Bytes, s.length = 200 → view (lay s) = s) ∧ (∀ m : Bytes, m.length = 200 → lay (view m) = m) := by
  have hl : ∀ s : Bytes, (lay s).length = 200 := fun s => by rw [lay, List.length_map, List.length_range]
  have hg : ∀ (s : Bytes) (j : Nat), j < 200 → (lay s).getD j 0 = s.getD (8 * Avx2Layout.fields.getD (j / 8) 0 + j % 8) 0 := by
    intro s j hj
    rw [lay, List.getD_eq_getElem?_getD, List.getElem?_map, List.getElem?_range hj]; rfl
  have h1 : ∀ i : Fin 25, Avx2Layout.fields.getD (Avx2Layout.place i.val) 0 = i.val := by decide
  have h2 : ∀ i : Fin 25, Avx2Layout.place (Avx2Layout.fields.getD i.val 0) = i.val := by decide
  have h3 : ∀ i : Fin 25, Avx2Layout.fields.getD i.val 0 < 25 := by decide
  constructor
  · intro s hs
    apply X86.ext_getD (by rw [length_view, hs])
    intro j hj
    rw [length_view] at hj
    have hp := phys_lt j hj
    have := h1 ⟨j / 8, by omega⟩
    simp only at this
    rw [getD_view _ j hj, hg _ _ (by omega), show (8 * Avx2Layout.place (j / 8) + j % 8) / 8 = Avx2Layout.place (j / 8) by omega, this,
      show 8 * (j / 8) + (8 * Avx2Layout.place (j / 8) + j % 8) % 8 = j by omega]
  · intro m hm
    apply X86.ext_getD (by rw [hl, hm])
    intro j hj
    rw [hl] at hj
    have a := h2 ⟨j / 8, by omega⟩
    have b := h3 ⟨j / 8, by omega⟩
    simp only at a b
    rw [hg _ _ hj, getD_view _ _ (by omega), show (8 * Avx2Layout.fields.getD (j / 8) 0 + j % 8) / 8 = Avx2Layout.fields.getD (j / 8) 0 by omega, a,
      show 8 * (j / 8) + (8 * Avx2Layout.fields.getD (j / 8) 0 + j % 8) % 8 = j by omega]

/-- C56: the byte access functions act on the 200 bytes of the state, in the usual order, as documented. -/
theorem C56_access : access.Implements 200 (fun s => s.length = 200) view where
  length := fun s _ => length_view s
  init := by
    have : access.init = List.replicate 200 0 := by
      unfold access
      dsimp only
      rw [init_eq _ List.length_replicate, Option.getD_some]
    rw [this]
    exact ⟨List.length_replicate, view_zero⟩
  addByte := by
    intro s b o hs ho
    obtain ⟨t, h1, h2, h3⟩ := addByte_eq s hs b o ho
    refine ⟨t, h1, h2, ?_⟩
    have := Bytes.updated_xorAt (view s) o 1 [b] (by simp)
    rw [h3]
    refine ⟨this.1, fun j hj => ?_⟩
    rw [show Bytes.xorAt (view s) o [b] = Bytes.xorAt (view s) o ([b].take 1) from rfl, this.2 j hj]
    split
    · rename_i hj; rw [show j - o = 0 by omega]; rfl
    · rfl
  addBytes := by
    intro s d o len hs h hd
    obtain ⟨t, h1, h2, h3⟩ := writeBytes_eq .xor s d hs o len h hd
    exact ⟨t, h1, h2, by rw [h3]; exact Bytes.updated_xorAt _ o len d hd⟩
  overwriteBytes := by
    intro s d o len hs h hd
    obtain ⟨t, h1, h2, h3⟩ := writeBytes_eq .mov s d hs o len h hd
    exact ⟨t, h1, h2, by rw [h3]; exact Bytes.updated_setAt _ o len d hd⟩
  overwriteWithZeroes := by
    intro s n hs h
    obtain ⟨t, h1, h2, h3⟩ := overwriteWithZeroes_eq s hs n h
    exact ⟨t, h1, h2, by rw [h3]; exact Bytes.updated_zeroes _ n⟩
  extractBytes := by
    intro s o len hs h
    exact ⟨_, extractBytes_eq s hs o len h, Bytes.slice_spec _ o len (by rw [length_view]; exact h)⟩
  extractAndAddBytes := by
    intro s d o len hs h hd
    exact ⟨_, extractAndAddBytes_eq s d hs o len h hd, Bytes.xor_slice_spec _ d o len (by rw [length_view]; exact h) hd⟩

/-- C56: the function that clears the state does so whatever is in the memory before. -/
theorem C56_initialize (m : Bytes) (h : m.length = 200) : ∃ t, Avx2Asm.init m = some t ∧ view t = List.replicate 200 0 :=
  ⟨_, init_eq m h, view_zero⟩

/-- C56: the three permutation functions are defined on states of 200 bytes and are KECCAK-p[1600, nr] of FIPS 202, for at least one round. -/
theorem C56_permute_partial (s : Bytes) (hs : s.length = 200) :
    (∀ nr, 0 < nr → nr ≤ 24 → ∃ t, permuteNrounds s nr = some t ∧ t.length = 200 ∧
      Bits.ofBytes (view t) = Spec.KeccakP.keccakP nr (Bits.ofBytes (view s))) ∧
    (∃ t, permute24 s = some t ∧ t.length = 200 ∧ Bits.ofBytes (view t) = Spec.KeccakP.keccakP 24 (Bits.ofBytes (view s))) ∧
    (∃ t, permute12 s = some t ∧ t.length = 200 ∧ Bits.ofBytes (view t) = Spec.KeccakP.keccakP 12 (Bits.ofBytes (view s))) := by
  have key : ∀ nr, nr ≤ 24 → ∀ t, view t = KeccakP1600.Ref.permuteNrounds nr (view s) →
      Bits.ofBytes (view t) = Spec.KeccakP.keccakP nr (Bits.ofBytes (view s)) := by
    intro nr h t e
    rw [e]; exact (C37_ref nr h _ (length_view s)).2
  refine ⟨fun nr h0 h => ?_, ?_, ?_⟩
  · obtain ⟨t, h1, h2, h3⟩ := permuteNrounds_eq nr h0 h s hs
    exact ⟨t, h1, h2, key nr h t h3⟩
  · obtain ⟨t, h1, h2, h3⟩ := permute24_eq s hs
    exact ⟨t, h1, h2, key 24 (by decide) t h3⟩
  · obtain ⟨t, h1, h2, h3⟩ := permute12_eq s hs
    exact ⟨t, h1, h2, key 12 (by decide) t h3⟩

/-- C56, finding F30: with no rounds, where the other implementations leave the state as it is, the function has no defined result: the loop body
is executed before the counter is tested, with a constant from after the end of the table, and then 2³² - 1 times more. -/
theorem C56_permute_zero (s : Bytes) : permuteNrounds s 0 = none ∧ Spec.KeccakP.keccakP 0 (Bits.ofBytes (view s)) = Bits.ofBytes (view s) := by
  refine ⟨permuteNrounds_zero s, ?_⟩
  rw [← (C37_ref 0 (by decide) (view s) (length_view s)).2]
  congr 1
  exact KeccakP1600.bytesOfLanes_lanesOfBytes _ (length_view s)

/-- C56: the fast loops return the number of bytes in whole blocks and leave the state that repeated addition of a block and permutation gives; any
number of lanes from 1 to 25, all data. -/
theorem C56_fastLoop (s : Bytes) (hs : s.length = 200) (n : Nat) (h0 : 0 < n) (hn : n ≤ 25) (data : Bytes) :
    (∃ t, fastLoop24 s n data = some (t, data.length / (n * 8) * (n * 8)) ∧ t.length = 200 ∧
      view t = SnP.absorbBlocks (KeccakP1600.Ref.permuteNrounds 24) (n * 8) (data.length / (n * 8)) (view s) data) ∧
    (∃ t, fastLoop12 s n data = some (t, data.length / (n * 8) * (n * 8)) ∧ t.length = 200 ∧
      view t = SnP.absorbBlocks (KeccakP1600.Ref.permuteNrounds 12) (n * 8) (data.length / (n * 8)) (view s) data) :=
  ⟨fastLoop_eq 23 (by decide) permute24 permute24_eq s hs n h0 hn data, fastLoop_eq 11 (by decide) permute12 permute12_eq s hs n h0 hn data⟩

/-- The implementation as an SnP, with the given functions, seen in the usual order. -/
def snp (permute : Bytes → Option Bytes) (fast : Bytes → Nat → Bytes → Option (Bytes × Nat)) : SnP where
  width := 200
  permute := fun s => ((permute (lay s)).map view).getD s
  fast := some fun s n data => ((fast (lay s) n data).map fun r => (view r.1, r.2)).getD (s, 0)

/-- C56: the modes can be built on the 24-round functions and those with 12 rounds. -/
theorem C56_computes : Computes (snp permute24 fastLoop24) 24 ∧ Computes (snp permute12 fastLoop12) 12 := by
  have hlay : ∀ s : Bytes, (lay s).length = 200 := fun s => by rw [lay, List.length_map, List.length_range]
  have main : ∀ (nr : Nat) (p : Bytes → Option Bytes) (f : Bytes → Nat → Bytes → Option (Bytes × Nat)), nr ≤ 24 →
      (∀ s : Bytes, s.length = 200 → ∃ t, p s = some t ∧ t.length = 200 ∧ view t = KeccakP1600.Ref.permuteNrounds nr (view s)) →
      (∀ s : Bytes, s.length = 200 → ∀ n, 0 < n → n ≤ 25 → ∀ data, ∃ t, f s n data = some (t, data.length / (n * 8) * (n * 8)) ∧ t.length = 200 ∧
        view t = SnP.absorbBlocks (KeccakP1600.Ref.permuteNrounds nr) (n * 8) (data.length / (n * 8)) (view s) data) →
      Computes (snp p f) nr := by
    intro nr p f hnr hp hf
    have key : ∀ s : Bytes, s.length = 200 → (snp p f).permute s = KeccakP1600.Ref.permuteNrounds nr s := by
      intro s hs
      obtain ⟨t, h1, _, h3⟩ := hp (lay s) (hlay s)
      change ((p (lay s)).map view).getD s = _
      rw [h1, Option.map_some, Option.getD_some, h3, C56_layout.1 s hs]
    have hlen : ∀ s : Bytes, s.length = 200 → (KeccakP1600.Ref.permuteNrounds nr s).length = 200 := fun s hs => (C37_ref nr hnr s hs).1
    have hL : (snp p f).laneBytes = 8 := by simp [SnP.laneBytes, snp]
    refine ⟨⟨fun s hs => by rw [key s hs]; exact hlen s hs, ?_⟩, rfl, fun s hs => ?_⟩
    · intro F hF s n data hs h0 hn
      rw [hL] at h0 hn
      change n * 8 ≤ 200 at hn
      cases hF
      obtain ⟨t, h1, _, h3⟩ := hf (lay s) (hlay s) n (by omega) (by omega) data
      change ((f (lay s) n data).map fun r => (view r.1, r.2)).getD (s, 0) = _
      rw [h1, Option.map_some, Option.getD_some, h3, hL, C56_layout.1 s hs, KeccakP1600.absorbBlocks_congr key hlen _ _ _ _ hs]
    · rw [key s hs]; exact ((C37_ref nr hnr s hs).2).symm
  exact ⟨main 24 _ _ (by decide) permute24_eq fun s hs n h0 hn data => (C56_fastLoop s hs n h0 hn data).1,
    main 12 _ _ (by decide) permute12_eq fun s hs n h0 hn data => (C56_fastLoop s hs n h0 hn data).2⟩

/-! ## Concrete cases -/

-- SHA3-256
example : ∃ o, KeccakHash.SHA3_256 (snp permute24 fastLoop24) [0x61, 0x62, 0x63] = some (0, o) ∧
    Bits.ofBytes o = Spec.SHA3 Spec.KeccakP.keccakF 256 (Bits.ofBytes [0x61, 0x62, 0x63]) :=
  (KeccakP1600.C10 C56_computes.1 _ 0).2.1

-- two blocks of 17 lanes, the path with the state in registers, with a remainder of 3 bytes
example : ∃ t, fastLoop24 (List.replicate 200 0) 17 (List.replicate 275 0xA5) = some (t, 272) := by
  obtain ⟨t, h, _⟩ := (C56_fastLoop (List.replicate 200 0) List.length_replicate 17 (by decide) (by decide) (List.replicate 275 0xA5)).1
  rw [List.length_replicate] at h
  exact ⟨t, h⟩

-- the order in memory is not the usual one: lane 5 (Aga) is the eighth member
example : Avx2Layout.place 5 = 7 ∧ (view ((List.range 200).map fun i => BitVec.ofNat 8 i)).getD 40 0 = 56 := by decide +kernel

-- byte access with an unaligned offset: bytes up to the lane, whole lanes and a byte
example : ∃ t, access.addBytes access.init (List.replicate 74 0xFF) 7 74 = some t ∧
    (view t).getD 6 0 = 0 ∧ (view t).getD 7 0 = 0xFF ∧ (view t).getD 80 0 = 0xFF ∧ (view t).getD 81 0 = 0 := by
  obtain ⟨t, h1, _, h2⟩ := C56_access.addBytes access.init (List.replicate 74 0xFF) 7 74
    C56_access.init.1 (by decide) (by rw [List.length_replicate])
  have h3 : ∀ j, j < 200 → _ := fun j hj => h2.2 j (by rw [C56_access.init.2, List.length_replicate]; exact hj)
  rw [C56_access.init.2] at h3
  exact ⟨t, h1, (h3 6 (by decide)).trans (by decide +kernel), (h3 7 (by decide)).trans (by decide +kernel),
    (h3 80 (by decide)).trans (by decide +kernel), (h3 81 (by decide)).trans (by decide +kernel)⟩

end Avx2Asm
