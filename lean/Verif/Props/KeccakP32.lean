import Verif.Proofs.KeccakPInplace32Loop
import Verif.Proofs.KeccakPInplace32Bytes
import Verif.Props.KeccakPOpt

/-!
# Properties C37, C38, C39, C40 for the two 32-bit bit-interleaved implementations

The state is 50 words of 32 bits: words `2 i` and `2 i + 1` hold the even and the odd bits of lane `i`.  `view32 A` is
the byte array that the words represent; `C40_view32` says what it is, bit by bit.
-/

namespace KeccakP1600

/-! ## C40 -/

/-- Bit `j` of the byte array (bit 0 of a byte first) is bit `(j mod 64) / 2` of word `2 (j / 64) + j mod 2`.  Every
array of 200 bytes is represented by exactly one array of words. -/
theorem C40_view32 :
    (∀ A : Words, (view32 A).length = 200) ∧
    (∀ (A : Words) (j : Fin 1600), ((view32 A).getD (j.val / 8) 0).getLsbD (j.val % 8) =
      (A ⟨2 * (j.val / 64) + j.val % 2, by omega⟩).getLsbD (j.val % 64 / 2)) ∧
    (∀ A B : Words, view32 A = view32 B → A = B) ∧
    ∀ s : Bytes, s.length = 200 → ∃ A : Words, view32 A = s := by
  refine ⟨length_view32, fun A j => ?_, fun A B h => ?_, fun s hs => ?_⟩
  · have hj := j.isLt
    rw [view32, List.getD_eq_getElem?_getD, getElem?_bytesOfLanes, dif_pos (by omega), Option.getD_some,
      getLsbD_byteOf _ _ _ (by omega), lanes, getLsbD_il _ _ _ (by omega)]
    simp only [show j.val / 8 / 8 = j.val / 64 by omega]
    rw [show 8 * (j.val / 8 % 8) + j.val % 8 = j.val % 64 by omega]
    split
    · congr 2; apply Fin.ext; simp only; omega
    · congr 2; apply Fin.ext; simp only; omega
  · have := congrArg lanesOfBytes h
    rw [view32, view32, lanesOfBytes_bytesOfLanes, lanesOfBytes_bytesOfLanes] at this
    exact lanes_injective this
  · let w (i : Fin 25) : Word × Word :=
      Ref32.toBitInterleaving ((lanesOfBytes s i).setWidth 32) ((lanesOfBytes s i >>> 32).setWidth 32)
    have hw : ∀ i, il (w i).1 (w i).2 = lanesOfBytes s i := by
      intro i
      rw [Ref32.toBitInterleaving_spec]
      apply BitVec.eq_of_getLsbD_eq; intro k hk
      rw [getLsbD_append64]
      split
      · rename_i h; simp [h]
      · rename_i h
        rw [BitVec.getLsbD_setWidth, BitVec.getLsbD_ushiftRight, show 32 + (k - 32) = k by omega]
        simp; omega
    refine ⟨fun j => if j.val % 2 = 0 then (w ⟨j.val / 2, by omega⟩).1 else (w ⟨j.val / 2, by omega⟩).2, ?_⟩
    refine Eq.trans (congrArg bytesOfLanes (funext fun i => ?_)) (bytesOfLanes_lanesOfBytes s hs)
    rw [← hw i]
    clear_value w
    simp only [lanes, show (i.val * 2) % 2 = 0 by omega, show (i.val * 2 + 1) % 2 = 1 by omega,
      show (2 * i.val) % 2 = 0 by omega, show (2 * i.val + 1) % 2 = 1 by omega,
      show (i.val * 2) / 2 = i.val by omega, show (i.val * 2 + 1) / 2 = i.val by omega,
      show (2 * i.val) / 2 = i.val by omega, show (2 * i.val + 1) / 2 = i.val by omega]
    simp

/-- C40, 32-bit reference implementation. -/
theorem C40_ref32 : Ref32.access.Implements 200 (fun _ => True) view32 := Ref32.implements

/-- C40, 32-bit in-place implementation. -/
theorem C40_inplace32 : Inplace32.access.Implements 200 (fun _ => True) view32 := Inplace32.implements

/-- The two pairs of conversion functions agree, and invert each other: a 64-bit lane given by its halves is taken to
its even and its odd bits, and back. -/
theorem C40_interleaving (low high : Word) :
    Inplace32.toBitInterleaving low high = Ref32.toBitInterleaving low high ∧
    Inplace32.fromBitInterleaving low high = Ref32.fromBitInterleaving low high ∧
    Ref32.fromBitInterleaving (Ref32.toBitInterleaving low high).1 (Ref32.toBitInterleaving low high).2 = (low, high) ∧
    (∀ k : Fin 16, (Ref32.toBitInterleaving low high).1.getLsbD k.val = low.getLsbD (2 * k.val) ∧
      (Ref32.toBitInterleaving low high).2.getLsbD k.val = low.getLsbD (2 * k.val + 1)) := by
  have happ : ∀ a b c d : Word, (a ++ b : Lane) = (c ++ d : Lane) → a = c ∧ b = d := by
    intro a b c d h
    constructor <;> apply BitVec.eq_of_getLsbD_eq <;> intro i hi
    · have := congrArg (fun v => BitVec.getLsbD v (i + 32)) h
      simpa [getLsbD_append64] using this
    · have := congrArg (fun v => BitVec.getLsbD v i) h
      simpa [getLsbD_append64, hi] using this
  refine ⟨?_, ?_, ?_, fun k => ?_⟩
  · have := il_injective ((Inplace32.toBitInterleaving_spec low high).trans
      (Ref32.toBitInterleaving_spec low high).symm)
    exact Prod.ext this.1 this.2
  · have := happ _ _ _ _ ((Inplace32.fromBitInterleaving_spec low high).trans
      (Ref32.fromBitInterleaving_spec low high).symm)
    exact Prod.ext this.2 this.1
  · have := happ _ _ _ _ ((Ref32.fromBitInterleaving_spec _ _).trans (Ref32.toBitInterleaving_spec low high))
    exact Prod.ext this.2 this.1
  · have h := Ref32.toBitInterleaving_spec low high
    have hk := k.isLt
    generalize Ref32.toBitInterleaving low high = t at h ⊢
    have h0 := congrArg (fun v => BitVec.getLsbD v (2 * k.val)) h
    have h1 := congrArg (fun v => BitVec.getLsbD v (2 * k.val + 1)) h
    simp only [getLsbD_append64] at h0 h1
    rw [getLsbD_il _ _ _ (by omega), if_pos (by omega), if_pos (by omega), show 2 * k.val / 2 = k.val by omega] at h0
    rw [getLsbD_il _ _ _ (by omega), if_neg (by omega), if_pos (by omega),
      show (2 * k.val + 1) / 2 = k.val by omega] at h1
    exact ⟨h0, h1⟩

/-! ## C39 -/

/-- C39: the tables computed by the 32-bit reference implementation are its static tables; interleaving a pair of words
gives the round constant of the 64-bit reference implementation (hence, by `C39_tables`, that of FIPS 202), the offsets
are the same, and the table of the in-place implementation has the same words, followed by its end marker, which
differs from every word at which the loop test looks before the end. -/
theorem C39_tables32 :
    Ref32.initializeRoundConstants = Ref32.roundConstants ∧ Ref32.initializeRhoOffsets = Ref32.rhoOffsets ∧
    (∀ i : Fin 24, il (Ref32.roundConstants.getD i.val (0, 0)).1 (Ref32.roundConstants.getD i.val (0, 0)).2 =
      Ref.roundConstants.getD i.val 0) ∧
    Ref32.rhoOffsets = Ref.rhoOffsets ∧
    Inplace32.roundConstants = (Ref32.roundConstants.flatMap fun c => [c.1, c.2]) ++ [0xFF] ∧
    (∀ i : Fin 24, Inplace32.roundConstants.getD (2 * i.val) 0 ≠ 0xFF) :=
  ⟨by decide +kernel, by decide +kernel, by decide +kernel, rfl, rfl, by decide +kernel⟩

/-- The shifts in `ROL32` as called by `ROL64` are by less than 32 positions for every offset that occurs (1 in theta,
the table in rho), hence defined. -/
theorem Ref32.shifts_defined : ∀ o ∈ 1 :: Ref32.rhoOffsets,
    (o % 2 = 0 → o / 2 < 32) ∧ (o % 2 ≠ 0 → (o + 1) / 2 < 32 ∧ (o - 1) / 2 < 32) := by decide

/-! ## C37 -/

theorem Ref32.view_permuteNrounds (nr : Nat) (hnr : nr ≤ 24) (A : Words) :
    view32 (permuteNrounds nr A) = Ref.permuteNrounds nr (view32 A) := by
  rw [view32, permuteNrounds, lanes_onWords A nr hnr, Ref.permuteNrounds, view32, lanesOfBytes_bytesOfLanes]

/-- C37, 32-bit reference implementation: the permutation functions are KECCAK-p[1600, nr] of FIPS 202 on the byte
array represented by the state, for both ways of building the tables. -/
theorem C37_ref32 (A : Words) :
    (∀ nr, nr ≤ 24 → Bits.ofBytes (view32 (Ref32.permuteNrounds nr A)) =
      Spec.KeccakP.keccakP nr (Bits.ofBytes (view32 A))) ∧
    (∀ nr, Ref32.permuteNroundsKR nr A = Ref32.permuteNrounds nr A) ∧
    Bits.ofBytes (view32 (Ref32.permute24 A)) = Spec.KeccakP.keccakP 24 (Bits.ofBytes (view32 A)) ∧
    Bits.ofBytes (view32 (Ref32.permute12 A)) = Spec.KeccakP.keccakP 12 (Bits.ofBytes (view32 A)) := by
  have key : ∀ nr, nr ≤ 24 → Bits.ofBytes (view32 (Ref32.permuteNrounds nr A)) =
      Spec.KeccakP.keccakP nr (Bits.ofBytes (view32 A)) := by
    intro nr h
    rw [Ref32.view_permuteNrounds nr h, (C37_ref nr h _ (length_view32 A)).2]
  refine ⟨key, fun nr => ?_, key 24 (by decide), key 12 (by decide)⟩
  rw [Ref32.permuteNroundsKR, C39_tables32.1, C39_tables32.2.1]; rfl

/-- C37, 32-bit in-place implementation: the permutation functions are defined (the loop ends, the table is not
overrun) and are KECCAK-p[1600, nr] of FIPS 202, whether or not the number of rounds is a multiple of four.  `nr = 0` is
excluded: see `C37_inplace32_zero`. -/
theorem C37_inplace32 (A : Words) :
    (∀ nr, 0 < nr → nr ≤ 24 → ∃ B, Inplace32.permuteNrounds A nr = some B ∧
      Bits.ofBytes (view32 B) = Spec.KeccakP.keccakP nr (Bits.ofBytes (view32 A))) ∧
    (∃ B, Inplace32.permute24 A = some B ∧
      Bits.ofBytes (view32 B) = Spec.KeccakP.keccakP 24 (Bits.ofBytes (view32 A))) ∧
    (∃ B, Inplace32.permute12 A = some B ∧
      Bits.ofBytes (view32 B) = Spec.KeccakP.keccakP 12 (Bits.ofBytes (view32 A))) := by
  have key : ∀ nr, 0 < nr → nr ≤ 24 → ∃ B, Inplace32.permuteNrounds A nr = some B ∧
      Bits.ofBytes (view32 B) = Spec.KeccakP.keccakP nr (Bits.ofBytes (view32 A)) :=
    fun nr h0 h => ⟨_, Inplace32.permuteNrounds_eq A nr h0 h, (C37_ref32 A).1 nr h⟩
  exact ⟨key, key 24 (by decide) (by decide), key 12 (by decide) (by decide)⟩

/-- With `nr = 0` the in-place implementation enters its loop and reads round constants past the end of the table:
undefined behaviour, where the reference implementations leave the state unchanged. -/
theorem C37_inplace32_zero (A : Words) : Inplace32.permuteNrounds A 0 = none ∧ Ref32.permuteNrounds 0 A = A :=
  ⟨Inplace32.permuteNrounds_zero A, rfl⟩

/-! ## C38 -/

/-- C38: both implementations permute the set of their states. -/
theorem C38_32bit (nr : Nat) (hnr : nr ≤ 24) :
    ((∀ A B, Ref32.permuteNrounds nr A = Ref32.permuteNrounds nr B → A = B) ∧
      ∀ B, ∃ A, Ref32.permuteNrounds nr A = B) ∧
    (0 < nr → (∀ A B, Inplace32.permuteNrounds A nr = Inplace32.permuteNrounds B nr → A = B) ∧
      ∀ B, ∃ A, Inplace32.permuteNrounds A nr = some B) := by
  obtain ⟨i, s⟩ := C38_ref nr hnr
  obtain ⟨_, _, vi, vs⟩ := C40_view32
  have inj : ∀ A B, Ref32.permuteNrounds nr A = Ref32.permuteNrounds nr B → A = B := fun A B h => by
    refine vi A B (i _ _ (length_view32 A) (length_view32 B) ?_)
    rw [← Ref32.view_permuteNrounds nr hnr, ← Ref32.view_permuteNrounds nr hnr, h]
  have surj : ∀ B, ∃ A, Ref32.permuteNrounds nr A = B := fun B => by
    obtain ⟨t, ht, e⟩ := s (view32 B) (length_view32 B)
    obtain ⟨A, hA⟩ := vs t ht
    exact ⟨A, vi _ _ (by rw [Ref32.view_permuteNrounds nr hnr, hA, e])⟩
  refine ⟨⟨inj, surj⟩, fun h0 => ⟨fun A B h => ?_, fun B => ?_⟩⟩
  · rw [Inplace32.permuteNrounds_eq A nr h0 hnr, Inplace32.permuteNrounds_eq B nr h0 hnr] at h
    exact inj A B (Option.some.inj h)
  · obtain ⟨A, hA⟩ := surj B
    exact ⟨A, by rw [Inplace32.permuteNrounds_eq A nr h0 hnr, hA]⟩

/-! ## The implementations as SnP for the modes -/

/-- The words that represent a byte array. -/
noncomputable def words32 (s : Bytes) : Words := by
  classical exact if h : ∃ A, view32 A = s then h.choose else fun _ => 0

theorem view32_words32 (s : Bytes) (hs : s.length = 200) : view32 (words32 s) = s := by
  have h := C40_view32.2.2.2 s hs
  rw [words32, dif_pos h]
  exact h.choose_spec

/-- The 32-bit reference implementation seen through its byte array (it has no fast loop). -/
noncomputable def Ref32.snp (nr : Nat) : SnP := ⟨200, fun s => view32 (permuteNrounds nr (words32 s)), none⟩

/-- The 32-bit in-place implementation seen through its byte array (it has no fast loop). -/
noncomputable def Inplace32.snp (nr : Nat) : SnP :=
  ⟨200, fun s => ((permuteNrounds (words32 s) nr).map view32).getD s, none⟩

theorem Ref32.computes (nr : Nat) (hnr : nr ≤ 24) : Computes (Ref32.snp nr) nr where
  valid := ⟨fun _ _ => length_view32 _, fun F hF => by cases hF⟩
  width := rfl
  permute := fun s hs => by
    have := (C37_ref32 (words32 s)).1 nr hnr
    rw [view32_words32 s hs] at this
    exact this.symm

theorem Inplace32.computes (nr : Nat) (h0 : 0 < nr) (hnr : nr ≤ 24) : Computes (Inplace32.snp nr) nr := by
  have key : (Inplace32.snp nr).permute = (Ref32.snp nr).permute := by
    funext s
    change ((permuteNrounds (words32 s) nr).map view32).getD s = _
    rw [permuteNrounds_eq _ nr h0 hnr]; rfl
  have h := Ref32.computes nr hnr
  exact ⟨⟨fun s hs => by rw [key]; exact h.valid.1 s hs, fun F hF => by cases hF⟩, rfl,
    fun s hs => by rw [key]; exact h.permute s hs⟩

/-! ## Concrete cases -/

-- a number of rounds that is not a multiple of four
example (A : Words) : ∃ B, Inplace32.permuteNrounds A 18 = some B ∧
    Bits.ofBytes (view32 B) = Spec.KeccakP.keccakP 18 (Bits.ofBytes (view32 A)) :=
  (C37_inplace32 A).1 18 (by decide) (by decide)

-- SHA3-256 over the in-place implementation
example : ∃ o, KeccakHash.SHA3_256 (Inplace32.snp 24) [0x61, 0x62, 0x63] = some (0, o) ∧
    Bits.ofBytes o = Spec.SHA3 Spec.KeccakP.keccakF 256 (Bits.ofBytes [0x61, 0x62, 0x63]) :=
  (C10 (Inplace32.computes 24 (by decide) (by decide)) _ 0).2.1

-- interleaving
example : Inplace32.toBitInterleaving 0x0000000B 0x80000000 = (0x00000001, 0x80000003) := by decide +kernel

-- byte access across a lane boundary
example : ∃ A, Inplace32.access.addBytes Inplace32.access.init [1, 2, 3, 4, 5] 6 5 = some A ∧
    (view32 A).getD 9 0 = 4 := by
  obtain ⟨A, h1, _, h2⟩ := C40_inplace32.addBytes Inplace32.access.init [1, 2, 3, 4, 5] 6 5 trivial (by decide)
    (by decide)
  refine ⟨A, h1, ?_⟩
  rw [h2.2 9 (by rw [length_view32]; decide), C40_inplace32.init.2]
  decide

end KeccakP1600
