import Verif.Proofs.KeccakXopBytes
import Verif.Proofs.KeccakPlane512Bytes
import Verif.Props.KeccakPOpt

/-!
# Property C51: the vectorised implementations of a single Keccak-p[1600] state

`Xop` is the XOP implementation, `Plane512` the one for AVX-512 in C.  The specifications are `Spec/KeccakP.lean` (FIPS 202),
`Spec/ByteArray.lean` (the flat byte array) and `SnP.absorbBlocks` (the contract of the fast loops).

`E0` is what is found in the uninitialised local variables of the XOP functions.
-/

open KeccakP1600 (Lanes bytesOfLanes Computes C37_ref)

namespace Xop

/-- C51, XOP: the byte access functions act on the 200 bytes of the state as documented. -/
theorem C51_access : access.Implements 200 (fun _ => True) bytesOfLanes :=
  Access.implements_of KeccakP1600.length_bytesOfLanes access addBytes_eq
    (fun A d o len h hd => by
      obtain ⟨A', h1, h2⟩ := KeccakP1600.memWrite_some (A := A) (o := o) (d := d.take len) (by simp; omega)
      refine ⟨A', ?_, h2⟩
      change overwriteBytes A d o len = _
      rw [overwriteBytes, SnP.readBuf_some hd]; exact h1)
    (fun A o len h => KeccakP1600.memRead_some h)
    extractAndAddBytes_eq KeccakP1600.bytesOfLanes_zero KeccakP1600.Compact.addByte_eq
    (fun A n h => by
      obtain ⟨A', h1, h2⟩ := KeccakP1600.memWrite_some (A := A) (o := 0) (d := List.replicate n 0) (by simp; omega)
      exact ⟨A', h1, h2⟩)

/-- C51, XOP: for every unrolling and whatever is in the uninitialised variables, the three permutation functions are
KECCAK-p[1600, nr] of FIPS 202 on the bytes of the state. -/
theorem C51_permute (unr : KeccakP1600.Opt64.Unrolling) (E0 : V) (A : Lanes) :
    (∀ nr, nr ≤ 24 → Bits.ofBytes (bytesOfLanes (permuteNrounds E0 A nr)) =
      Spec.KeccakP.keccakP nr (Bits.ofBytes (bytesOfLanes A))) ∧
    Bits.ofBytes (bytesOfLanes (permute24 unr E0 A)) = Spec.KeccakP.keccakP 24 (Bits.ofBytes (bytesOfLanes A)) ∧
    Bits.ofBytes (bytesOfLanes (permute12 unr E0 A)) = Spec.KeccakP.keccakP 12 (Bits.ofBytes (bytesOfLanes A)) := by
  have hl := KeccakP1600.length_bytesOfLanes A
  have key : ∀ nr, nr ≤ 24 → Bits.ofBytes (bytesOfLanes
      (KeccakP1600.Ref.onWords KeccakP1600.Ref.roundConstants KeccakP1600.Ref.rhoOffsets A nr)) =
      Spec.KeccakP.keccakP nr (Bits.ofBytes (bytesOfLanes A)) := by
    intro nr h
    rw [← (C37_ref nr h _ hl).2, KeccakP1600.Ref.permuteNrounds, KeccakP1600.lanesOfBytes_bytesOfLanes]
  refine ⟨fun nr h => ?_, ?_, ?_⟩
  · rw [permuteNrounds_eq E0 A nr h, key nr h]
  · rw [permute24_eq, key 24 (by decide)]
  · rw [permute12_eq, key 12 (by decide)]

/-- The XOP implementation seen through its byte array (it has no fast loop). -/
def snp (E0 : V) (nr : Nat) : SnP where
  width := 200
  permute := fun s => bytesOfLanes (permuteNrounds E0 (KeccakP1600.lanesOfBytes s) nr)
  fast := none

/-- C51, XOP: the modes can be built on it. -/
theorem C51_computes (E0 : V) (nr : Nat) (hnr : nr ≤ 24) : Computes (snp E0 nr) nr := by
  have key : ∀ s : Bytes, s.length = 200 → (snp E0 nr).permute s = KeccakP1600.Ref.permuteNrounds nr s := by
    intro s _
    change bytesOfLanes (permuteNrounds E0 (KeccakP1600.lanesOfBytes s) nr) = _
    rw [permuteNrounds_eq _ _ nr hnr]; rfl
  refine ⟨⟨fun s hs => ?_, fun F hF => by cases hF⟩, rfl, fun s hs => ?_⟩
  · rw [key s hs]; exact (C37_ref nr hnr s hs).1
  · rw [key s hs]; exact ((C37_ref nr hnr s hs).2).symm

end Xop

namespace Plane512

/-- C51, AVX-512: the byte access functions act on the 200 bytes of the state as documented. -/
theorem C51_access : access.Implements 200 (fun s => s.length = 200) id where
  length := fun _ h => h
  init := ⟨List.length_replicate, rfl⟩
  addByte := by
    intro s b o hs ho
    refine ⟨_, addByte_eq s b o (by omega), by simpa using hs, ?_⟩
    have := Bytes.updated_xorAt s o 1 [b] (by simp)
    refine ⟨this.1, fun j hj => ?_⟩
    rw [id, show Bytes.xorAt s o [b] = Bytes.xorAt s o ([b].take 1) from rfl, this.2 j hj]
    split
    · rename_i hj; rw [show j - o = 0 by omega]; rfl
    · rfl
  addBytes := by
    intro s d o len hs h hd
    exact ⟨_, addBytes_eq s d o len (by omega) hd, by simpa using hs, Bytes.updated_xorAt s o len d hd⟩
  overwriteBytes := by
    intro s d o len hs h hd
    have hl : (d.take len).length = len := by simp; omega
    refine ⟨Bytes.setAt s o (d.take len), ?_, by simpa using hs, Bytes.updated_setAt s o len d hd⟩
    change overwriteBytes s d o len = _
    rw [overwriteBytes, SnP.readBuf_some hd, Option.bind_eq_bind, Option.bind_some, SnP.overwriteBytes, if_pos (by rw [hl]; omega)]
  overwriteWithZeroes := by
    intro s n hs h
    refine ⟨Bytes.setAt s 0 (List.replicate n 0), ?_, by simpa using hs, Bytes.updated_zeroes s n⟩
    change overwriteWithZeroes s n = _
    rw [overwriteWithZeroes, SnP.overwriteBytes, if_pos (by simp; omega)]
  extractBytes := by
    intro s o len hs h
    refine ⟨_, ?_, Bytes.slice_spec s o len (by omega)⟩
    change extractBytes s o len = _
    rw [extractBytes, SnP.readBuf_some (by simp; omega)]
    rfl
  extractAndAddBytes := by
    intro s d o len hs h hd
    exact ⟨_, extractAndAddBytes_eq s d o len (by omega) hd, Bytes.xor_slice_spec s d o len (by omega) hd⟩

/-- C51, AVX-512: for every unrolling, the three permutation functions are defined on states of 200 bytes and are
KECCAK-p[1600, nr] of FIPS 202. -/
theorem C51_permute (unr : Unrolling) (s : Bytes) (hs : s.length = 200) :
    (∀ nr, nr ≤ 24 → ∃ t, permuteNrounds s nr = some t ∧ t.length = 200 ∧
      Bits.ofBytes t = Spec.KeccakP.keccakP nr (Bits.ofBytes s)) ∧
    (∃ t, permute24 unr s = some t ∧ t.length = 200 ∧ Bits.ofBytes t = Spec.KeccakP.keccakP 24 (Bits.ofBytes s)) ∧
    (∃ t, permute12 unr s = some t ∧ t.length = 200 ∧ Bits.ofBytes t = Spec.KeccakP.keccakP 12 (Bits.ofBytes s)) :=
  ⟨fun nr h => ⟨_, permuteNrounds_eq nr h s hs, C37_ref nr h s hs⟩,
    ⟨_, permute24_eq unr s hs, C37_ref 24 (by decide) s hs⟩, ⟨_, permute12_eq unr s hs, C37_ref 12 (by decide) s hs⟩⟩

/-- C51, AVX-512: the fast loops return the number of bytes in whole blocks and leave the state that repeated addition of a
block and permutation gives; any number of lanes from 1 to 25, all data. -/
theorem C51_fastLoop (unr : Unrolling) (s : Bytes) (hs : s.length = 200) (n : Nat) (h0 : 0 < n) (hn : n ≤ 25) (data : Bytes) :
    fastLoopAbsorb24 unr s n data = some (SnP.absorbBlocks (KeccakP1600.Ref.permuteNrounds 24) (n * 8) (data.length / (n * 8)) s data,
      data.length / (n * 8) * (n * 8)) ∧
    fastLoopAbsorb12 unr s n data = some (SnP.absorbBlocks (KeccakP1600.Ref.permuteNrounds 12) (n * 8) (data.length / (n * 8)) s data,
      data.length / (n * 8) * (n * 8)) :=
  ⟨fastLoopAbsorb_eq _ _ 24 (rounds24_eq unr) (permute24_eq unr) s hs n h0 hn data,
    fastLoopAbsorb_eq _ _ 12 (rounds12_eq unr) (permute12_eq unr) s hs n h0 hn data⟩

/-- The implementation as an SnP, with the 24-round functions. -/
def snp24 (unr : Unrolling) : SnP where
  width := 200
  permute := fun s => (permute24 unr s).getD s
  fast := some fun s n data => (fastLoopAbsorb24 unr s n data).getD (s, 0)

/-- The implementation as an SnP, with the 12-round functions. -/
def snp12 (unr : Unrolling) : SnP where
  width := 200
  permute := fun s => (permute12 unr s).getD s
  fast := some fun s n data => (fastLoopAbsorb12 unr s n data).getD (s, 0)

/-- C51, AVX-512: the modes can be built on the 24-round functions and those with 12 rounds. -/
theorem C51_computes (unr : Unrolling) : Computes (snp24 unr) 24 ∧ Computes (snp12 unr) 12 := by
  have k24 : ∀ s : Bytes, s.length = 200 → (snp24 unr).permute s = KeccakP1600.Ref.permuteNrounds 24 s := by
    intro s hs
    change (permute24 unr s).getD s = _
    rw [permute24_eq unr s hs]; rfl
  have k12 : ∀ s : Bytes, s.length = 200 → (snp12 unr).permute s = KeccakP1600.Ref.permuteNrounds 12 s := by
    intro s hs
    change (permute12 unr s).getD s = _
    rw [permute12_eq unr s hs]; rfl
  have hL : (snp24 unr).laneBytes = 8 ∧ (snp12 unr).laneBytes = 8 := by simp [SnP.laneBytes, snp24, snp12]
  have hlen : ∀ nr, nr ≤ 24 → ∀ s : Bytes, s.length = 200 → (KeccakP1600.Ref.permuteNrounds nr s).length = 200 :=
    fun nr h s hs => (C37_ref nr h s hs).1
  constructor
  · refine ⟨⟨fun s hs => by rw [k24 s hs]; exact hlen 24 (by decide) s hs, ?_⟩, rfl, fun s hs => ?_⟩
    · intro F hF s n data hs h0 hn
      rw [hL.1] at h0 hn
      change n * 8 ≤ 200 at hn
      cases hF
      change (fastLoopAbsorb24 unr s n data).getD (s, 0) = _
      rw [(C51_fastLoop unr s hs n (by omega) (by omega) data).1, hL.1]
      rw [Option.getD_some, KeccakP1600.absorbBlocks_congr k24 (hlen 24 (by decide)) _ _ _ _ hs]
    · rw [k24 s hs]; exact ((C37_ref 24 (by decide) s hs).2).symm
  · refine ⟨⟨fun s hs => by rw [k12 s hs]; exact hlen 12 (by decide) s hs, ?_⟩, rfl, fun s hs => ?_⟩
    · intro F hF s n data hs h0 hn
      rw [hL.2] at h0 hn
      change n * 8 ≤ 200 at hn
      cases hF
      change (fastLoopAbsorb12 unr s n data).getD (s, 0) = _
      rw [(C51_fastLoop unr s hs n (by omega) (by omega) data).2, hL.2]
      rw [Option.getD_some, KeccakP1600.absorbBlocks_congr k12 (hlen 12 (by decide)) _ _ _ _ hs]
    · rw [k12 s hs]; exact ((C37_ref 12 (by decide) s hs).2).symm

end Plane512

/-! ## Concrete cases -/

-- SHA3-256 over the XOP and over the AVX-512 implementation
example (E0 : Xop.V) : ∃ o, KeccakHash.SHA3_256 (Xop.snp E0 24) [0x61, 0x62, 0x63] = some (0, o) ∧
    Bits.ofBytes o = Spec.SHA3 Spec.KeccakP.keccakF 256 (Bits.ofBytes [0x61, 0x62, 0x63]) :=
  (KeccakP1600.C10 (Xop.C51_computes E0 24 (by decide)) _ 0).2.1

example : ∃ o, KeccakHash.SHA3_256 (Plane512.snp24 .u6) [0x61, 0x62, 0x63] = some (0, o) ∧
    Bits.ofBytes o = Spec.SHA3 Spec.KeccakP.keccakF 256 (Bits.ofBytes [0x61, 0x62, 0x63]) :=
  (KeccakP1600.C10 (Plane512.C51_computes .u6).1 _ 0).2.1

-- two blocks of 21 lanes, the path with the state in registers, with a remainder of 3 bytes
example : ∃ t, Plane512.fastLoopAbsorb12 .full (List.replicate 200 0) 21 (List.replicate 339 0xA5) = some (t, 336) := by
  have h := (Plane512.C51_fastLoop .full (List.replicate 200 0) List.length_replicate 21 (by decide) (by decide) (List.replicate 339 0xA5)).2
  rw [List.length_replicate] at h
  exact ⟨_, h⟩

-- byte access with an unaligned offset: bytes up to the lane, a register of eight lanes, a lane and a byte
example : ∃ t, Plane512.access.addBytes Plane512.access.init (List.replicate 74 0xFF) 7 74 = some t ∧
    t.getD 6 0 = 0 ∧ t.getD 7 0 = 0xFF ∧ t.getD 80 0 = 0xFF ∧ t.getD 81 0 = 0 := by
  obtain ⟨t, h1, _, h2⟩ := Plane512.C51_access.addBytes Plane512.access.init (List.replicate 74 0xFF) 7 74
    List.length_replicate (by decide) (by rw [List.length_replicate])
  have h3 : ∀ j, j < 200 → _ := fun j hj => h2.2 j (by
    rw [Plane512.C51_access.init.2, List.length_replicate]; exact hj)
  exact ⟨t, h1, (h3 6 (by decide)).trans (by decide +kernel), (h3 7 (by decide)).trans (by decide +kernel),
    (h3 80 (by decide)).trans (by decide +kernel), (h3 81 (by decide)).trans (by decide +kernel)⟩
