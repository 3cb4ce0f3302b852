import Verif.Proofs.KeccakX64View

/-!
# Property C59: the x86-64 implementation of Keccak-p[1600] in assembly

`X64Asm` is a model of `KeccakP-1600-x86-64-gas.s`, `KeccakP-1600-x86-64-shld-gas.s` and `KeccakP-1600-x86-64-gas_Apple.s`, instruction by
instruction; `Variant` selects the file and the symbol `UseSIMD`.  The specifications are `Spec/KeccakP.lean` (FIPS 202), `Spec/ByteArray.lean` (the
flat byte array), `Spec/LaneComplement.lean` (what the bytes in memory stand for) and `SnP.absorbBlocks` (the contract of the fast loops).
-/

namespace X64Asm

open KeccakP1600 (Lane Computes C37_ref bytesOfWord)
open KeccakP1600.Opt64 (V)
open Spec (laneComplement withTrailer)
open X86

/-- C59: the byte access functions act on the state that the 200 bytes in memory stand for as documented. -/
theorem C59_access (v : Variant) : (access v).Implements 200 (fun s => s.length = 200) laneComplement where
  length := fun s hs => (length_lc s).trans hs
  init := by
    have : (access v).init = tableBytes := by
      unfold access
      dsimp only
      rw [init_eq v _ List.length_replicate, Option.getD_some]
    rw [this]
    refine ⟨length_table, ?_⟩
    apply ext_getD (by rw [length_lc, length_table, List.length_replicate])
    intro j hj
    rw [length_lc, length_table] at hj
    rw [getD_lc _ length_table _ hj, BitVec.xor_self, List.getD_eq_getElem?_getD, List.getElem?_replicate, if_pos hj]
    rfl
  addByte := by
    intro s b o hs ho
    have := Bytes.updated_xorAt (laneComplement s) o 1 [b] (by simp)
    refine ⟨_, addByteMacro_eq s b o (by omega), by rw [Bytes.length_xorAt]; exact hs, ?_⟩
    rw [lc_xorAt]
    refine ⟨this.1, fun j hj => ?_⟩
    rw [show Bytes.xorAt (laneComplement s) o [b] = Bytes.xorAt (laneComplement s) o ([b].take 1) from rfl]
    refine (this.2 j hj).trans ?_
    split
    · rename_i hj; rw [show j - o = 0 by omega]; rfl
    · rfl
  addBytes := by
    intro s d o len hs h hd
    refine ⟨_, addBytes_eq v s d o len hs h hd, by rw [Bytes.length_xorAt]; exact hs, ?_⟩
    rw [lc_xorAt]
    exact Bytes.updated_xorAt _ o len d hd
  overwriteBytes := by
    intro s d o len hs h hd
    refine ⟨_, overwriteBytes_eq s d hs o len h hd, by rw [Bytes.length_setAt]; exact hs, ?_⟩
    have e : tab (fun q => d.getD q 0) len = (tab (fun q => d.getD q 0) len).take len := by rw [List.take_of_length_le (by rw [length_tab])]
    have hu := Bytes.updated_setAt (laneComplement s) o len (tab (fun q => d.getD q 0) len) (by rw [length_tab])
    rw [← e] at hu
    rw [show owF d o = fun q => d.getD q 0 ^^^ tableBytes.getD (o + q) 0 from rfl, lc_setAt s hs o len]
    refine ⟨hu.1, fun j hj => (hu.2 j hj).trans ?_⟩
    split
    · exact getD_tab _ _ _ (by omega)
    · rfl
  overwriteWithZeroes := by
    intro s n hs h
    refine ⟨_, overwriteWithZeroes_eq s hs n h, by rw [Bytes.length_setAt]; exact hs, ?_⟩
    have e : tab (fun q => tableBytes.getD q 0) n = tab (fun q => (fun _ => (0 : Byte)) q ^^^ tableBytes.getD (0 + q) 0) n := by
      unfold tab
      apply List.map_congr_left
      intro q _
      rw [Nat.zero_add]
      exact BitVec.zero_xor.symm
    have ez : tab (fun _ => (0 : Byte)) n = List.replicate n 0 := by
      unfold tab
      rw [List.map_const', List.length_range]
    rw [e, lc_setAt s hs 0 n, ez]
    exact Bytes.updated_zeroes _ n
  extractBytes := by
    intro s o len hs h
    refine ⟨_, extractBytes_eq s hs o len h, length_tab _ _, fun i hi => ?_⟩
    rw [getD_tab _ _ _ hi, getD_lc _ hs _ (by omega)]
    rfl
  extractAndAddBytes := by
    intro s d o len hs h hd
    refine ⟨_, extractAndAddBytes_eq s d hs o len h hd, length_tab _ _, fun i hi => ?_⟩
    rw [getD_tab _ _ _ hi, getD_lc _ hs _ (by omega), BitVec.xor_comm]
    rfl

/-- C59: the function that clears the state does so whatever is in the memory before. -/
theorem C59_initialize (v : Variant) (m : Bytes) (h : m.length = 200) :
    ∃ t, X64Asm.init v m = some t ∧ t.length = 200 ∧ laneComplement t = List.replicate 200 0 := by
  have e : (access v).init = tableBytes := by
    unfold access
    dsimp only
    rw [init_eq v _ List.length_replicate, Option.getD_some]
  have := (C59_access v).init.2
  rw [e] at this
  exact ⟨_, init_eq v m h, length_table, this⟩

/-- C59: the function that the macro `KeccakP1600_AddByte` hides adds the low byte of its argument. -/
theorem C59_addByte (s : Bytes) (hs : s.length = 200) (data : Lane) (o : Nat) (ho : o < 200) :
    ∃ t, X64Asm.addByte s data o = some t ∧ t.length = 200 ∧
      (laneComplement s).Updated (laneComplement t) o 1 fun _ x => x ^^^ data.setWidth 8 := by
  refine ⟨_, addByte_eq s data o (by omega), by rw [Bytes.length_xorAt]; exact hs, ?_⟩
  obtain ⟨t, e, _, h⟩ := (C59_access ⟨false, false⟩).addByte s (data.setWidth 8) o hs ho
  rw [show (access ⟨false, false⟩).addByte s (data.setWidth 8) o = addByteMacro s (data.setWidth 8) o from rfl,
    addByteMacro_eq s _ o (by omega)] at e
  rw [Option.some.inj e]
  exact h

/-- C59: the permutation functions are defined on states of 200 bytes and are KECCAK-p[1600, nr] of FIPS 202.  The number of rounds is at least 1;
see `C59_permute_zero`. -/
theorem C59_permute_partial (v : Variant) (junk : V) (s : Bytes) (hs : s.length = 200) :
    (∀ nr, 0 < nr → nr ≤ 24 → ∃ t, permuteNrounds v junk s nr = some t ∧ t.length = 200 ∧
      Bits.ofBytes (laneComplement t) = Spec.KeccakP.keccakP nr (Bits.ofBytes (laneComplement s))) ∧
    (∃ t, permute24 v junk s = some t ∧ t.length = 200 ∧
      Bits.ofBytes (laneComplement t) = Spec.KeccakP.keccakP 24 (Bits.ofBytes (laneComplement s))) ∧
    (∃ t, permute12 v junk s = some t ∧ t.length = 200 ∧
      Bits.ofBytes (laneComplement t) = Spec.KeccakP.keccakP 12 (Bits.ofBytes (laneComplement s))) := by
  have hl : (laneComplement s).length = 200 := (length_lc s).trans hs
  refine ⟨fun nr h0 h => ?_, ?_, ?_⟩
  · obtain ⟨t, e, ht, hv⟩ := permuteNrounds_eq v junk s hs nr h0 h
    exact ⟨t, e, ht, by rw [hv]; exact (C37_ref nr h _ hl).2⟩
  · obtain ⟨t, e, ht, hv⟩ := permute24_eq v junk s hs
    exact ⟨t, e, ht, by rw [hv]; exact (C37_ref 24 (by decide) _ hl).2⟩
  · obtain ⟨t, e, ht, hv⟩ := permute12_eq v junk s hs
    exact ⟨t, e, ht, by rw [hv]; exact (C37_ref 12 (by decide) _ hl).2⟩

/-- C59, the corner: with no rounds `KeccakP1600_Permute_Nrounds` jumps to an address that it reads 8 bytes before its table, where every other
implementation returns the state unchanged. -/
theorem C59_permute_zero (v : Variant) (junk : V) (s : Bytes) : permuteNrounds v junk s 0 = none := by
  unfold permuteNrounds
  cases loadV s <;> rfl

/-- C59: the fast loop returns the number of bytes in whole blocks, and absorbs each block followed by the lane of trailing bits; up to 24 lanes, all
data, see `C59_fastLoop_25`.  Without trailing bits it is the contract of the fast loops. -/
theorem C59_fastLoop_partial (v : Variant) (junk : V) (s : Bytes) (hs : s.length = 200) (n : Nat) (h0 : 0 < n) (hn : n < 25) (data : Bytes)
    (hd : data.length < 2 ^ 64) :
    (∀ trailingBits, ∃ t, fastLoop v junk s n data trailingBits = some (t, data.length / (n * 8) * (n * 8)) ∧ t.length = 200 ∧
      laneComplement t = SnP.absorbBlocks (KeccakP1600.Ref.permuteNrounds 24) (n * 8 + 8) (data.length / (n * 8)) (laneComplement s)
        (withTrailer (n * 8) (bytesOfWord trailingBits) (data.length / (n * 8)) data)) ∧
    ∃ t, fastLoop v junk s n data 0 = some (t, data.length / (n * 8) * (n * 8)) ∧ t.length = 200 ∧
      laneComplement t = SnP.absorbBlocks (KeccakP1600.Ref.permuteNrounds 24) (n * 8) (data.length / (n * 8)) (laneComplement s) data := by
  refine ⟨fun w => fastLoop_eq v junk s hs n h0 hn data hd w, ?_⟩
  obtain ⟨t, e, ht, hv⟩ := fastLoop_eq v junk s hs n h0 hn data hd 0
  exact ⟨t, e, ht, by rw [hv, absorbed_zero n _ _ _ (Nat.div_mul_le_self _ _)]⟩

/-- C59, the corner: with 25 lanes, which the contract of the fast loops admits, the lane of trailing bits is added to the 8 bytes after the state. -/
theorem C59_fastLoop_25 (v : Variant) (junk : V) (s : Bytes) (hs : s.length = 200) (data : Bytes) (hd : 200 ≤ data.length) (hd64 : data.length < 2 ^ 64)
    (trailingBits : Lane) : fastLoop v junk s 25 data trailingBits = none := by
  rw [fastLoop]
  dsimp only
  rw [if_neg (by omega), if_pos (by decide), variableLoop, addBytesP_eq v s data 0 0 _ hs (by decide) (by omega)]
  have : ∀ st : Bytes, st.length = 200 → xorMem st 200 trailingBits = none := by
    intro st h
    have hr : rd64 st 200 = none := by
      rw [rd64, SnP.readBuf, if_neg (by rw [List.length_drop]; omega)]; rfl
    rw [xorMem, hr]; rfl
  simp only [Option.bind_eq_bind, Option.bind_some]
  rw [show 0 + 25 * 2 ^ 3 = 200 from rfl, this _ (by rw [Bytes.length_xorAt]; exact hs)]
  rfl

/-- The implementation as an SnP: the permutation on the states that the bytes in memory stand for.  The fast loop is not declared in
`KeccakP-1600-SnP.h`, and the modes do not use it. -/
def snp (permute : Bytes → Option Bytes) : SnP where
  width := 200
  permute := fun s => laneComplement ((permute (laneComplement s)).getD [])
  fast := none

/-- C59: the modes can be built on the 24-round function and that with 12 rounds. -/
theorem C59_computes (v : Variant) (junk : V) : Computes (snp (permute24 v junk)) 24 ∧ Computes (snp (permute12 v junk)) 12 := by
  have invol : ∀ s : Bytes, s.length = 200 → laneComplement (laneComplement s) = s := by
    intro s hs
    have hl : (laneComplement s).length = 200 := (length_lc s).trans hs
    apply ext_getD (by rw [length_lc, length_lc])
    intro j hj
    rw [length_lc, hl] at hj
    rw [getD_lc _ hl _ hj, getD_lc _ hs _ hj, BitVec.xor_assoc, BitVec.xor_self, BitVec.xor_zero]
  have main : ∀ (nr : Nat) (p : Bytes → Option Bytes), nr ≤ 24 →
      (∀ s : Bytes, s.length = 200 → ∃ t, p s = some t ∧ t.length = 200 ∧ laneComplement t = KeccakP1600.Ref.permuteNrounds nr (laneComplement s)) →
      Computes (snp p) nr := by
    intro nr p hnr hp
    have key : ∀ s : Bytes, s.length = 200 → (snp p).permute s = KeccakP1600.Ref.permuteNrounds nr s := by
      intro s hs
      obtain ⟨t, e, _, hv⟩ := hp (laneComplement s) ((length_lc s).trans hs)
      change laneComplement ((p (laneComplement s)).getD []) = _
      rw [e, Option.getD_some, hv, invol s hs]
    have hlen : ∀ s : Bytes, s.length = 200 → (KeccakP1600.Ref.permuteNrounds nr s).length = 200 := fun s hs => (C37_ref nr hnr s hs).1
    refine ⟨⟨fun s hs => by rw [key s hs]; exact hlen s hs, ?_⟩, rfl, fun s hs => ?_⟩
    · intro F hF; cases hF
    · rw [key s hs]; exact ((C37_ref nr hnr s hs).2).symm
  exact ⟨main 24 _ (by decide) (permute24_eq v junk), main 12 _ (by decide) (permute12_eq v junk)⟩

/-! ## Concrete cases -/

-- SHA3-256, with the file that uses `shld`
example (junk : V) : ∃ o, KeccakHash.SHA3_256 (snp (permute24 ⟨true, true⟩ junk)) [0x61, 0x62, 0x63] = some (0, o) ∧
    Bits.ofBytes o = Spec.SHA3 Spec.KeccakP.keccakF 256 (Bits.ofBytes [0x61, 0x62, 0x63]) :=
  (KeccakP1600.C10 (C59_computes ⟨true, true⟩ junk).1 _ 0).2.1

-- an odd number of rounds, which starts on the stack
example (junk : V) : ∃ t, permuteNrounds ⟨false, true⟩ junk (List.replicate 200 0x5A) 13 = some t ∧ t.length = 200 ∧
    Bits.ofBytes (laneComplement t) = Spec.KeccakP.keccakP 13 (Bits.ofBytes (laneComplement (List.replicate 200 0x5A))) :=
  (C59_permute_partial _ junk _ List.length_replicate).1 13 (by decide) (by decide)

-- two blocks of 21 lanes and the trailing byte 1, with a remainder of 3 bytes
example (junk : V) : ∃ t, fastLoop ⟨false, true⟩ junk (List.replicate 200 0) 21 (List.replicate 339 0xA5) 1 = some (t, 336) := by
  obtain ⟨t, h, _⟩ := (C59_fastLoop_partial ⟨false, true⟩ junk (List.replicate 200 0) List.length_replicate 21 (by decide) (by decide)
    (List.replicate 339 0xA5) (by rw [List.length_replicate]; decide)).1 1
  rw [List.length_replicate] at h
  exact ⟨t, h⟩

-- two blocks with the lane of trailing bits between them
example : withTrailer 2 [9] 2 [1, 2, 3, 4, 5] = [1, 2, 9, 3, 4, 9] := by decide

-- byte access with an unaligned offset over the complemented lanes 1 and 2
example (v : Variant) : ∃ t, (access v).overwriteBytes (access v).init (List.replicate 74 0xFF) 7 74 = some t ∧
    (laneComplement t).getD 6 0 = 0 ∧ (laneComplement t).getD 7 0 = 0xFF ∧ (laneComplement t).getD 80 0 = 0xFF ∧
    (laneComplement t).getD 81 0 = 0 := by
  obtain ⟨t, h1, _, h2⟩ := (C59_access v).overwriteBytes (access v).init (List.replicate 74 0xFF) 7 74
    (C59_access v).init.1 (by decide) (by rw [List.length_replicate])
  have h3 : ∀ j, j < 200 → _ := fun j hj => h2.2 j (by rw [(C59_access v).init.2, List.length_replicate]; exact hj)
  rw [(C59_access v).init.2] at h3
  exact ⟨t, h1, (h3 6 (by decide)).trans (by decide +kernel), (h3 7 (by decide)).trans (by decide +kernel),
    (h3 80 (by decide)).trans (by decide +kernel), (h3 81 (by decide)).trans (by decide +kernel)⟩

end X64Asm
