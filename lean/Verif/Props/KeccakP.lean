import Verif.Proofs.KeccakP
import Verif.Proofs.KeccakPInv

/-!
# Properties C37, C38, C39 for the reference implementation of Keccak-p[1600]

The C functions take the 200-byte state; FIPS 202 works on bit strings.  `Bits.ofBytes` is the usual
correspondence (bit 0 of a byte first).
-/

namespace KeccakP1600

/-- `SnP` implementation `P` computes KECCAK-p[1600, nr] of FIPS 202, bit for bit. -/
structure Computes (P : SnP) (nr : Nat) : Prop where
  valid : P.Valid
  width : P.width = 200
  permute : ∀ s : Bytes, s.length = P.width → Spec.KeccakP.keccakP nr (Bits.ofBytes s) = Bits.ofBytes (P.permute s)

/-- C37 (reference, 64 bits): `KeccakP1600_Permute_Nrounds` is KECCAK-p[1600, nr] for every state and every
number of rounds from 0 to 24, for both ways of building the tables. -/
theorem C37_ref (nr : Nat) (hnr : nr ≤ 24) (s : Bytes) (hs : s.length = 200) :
    (Ref.permuteNrounds nr s).length = 200 ∧
    Bits.ofBytes (Ref.permuteNrounds nr s) = Spec.KeccakP.keccakP nr (Bits.ofBytes s) := by
  refine ⟨length_bytesOfLanes _, ?_⟩
  rw [Ref.permuteNrounds, ofBytes_bytesOfLanes, arr_onWords _ _ hnr, arr_lanesOfBytes]
  rfl

/-- C39: the tables computed by `KeccakP1600_InitializeRoundConstants` and
`KeccakP1600_InitializeRhoOffsets` are the static tables, and these are the constants of FIPS 202: bit `z` of
entry `i` is `RC[z]` of round `i` (Algorithms 5 and 6), and the offset of lane `(x, y)` is the rotation by which
ρ (Algorithm 2) moves it. -/
theorem C39_tables :
    Ref.initializeRoundConstants = Ref.roundConstants ∧ Ref.initializeRhoOffsets = Ref.rhoOffsets ∧
    (∀ i : Fin 24, ∀ z : Fin 64, (Ref.roundConstants.getD i.val 0).getLsbD z.val = Spec.KeccakP.RC i.val z) ∧
    (∀ (S : Spec.KeccakP.StateArray) (x y : Fin 5) (z : Fin 64), Spec.KeccakP.rho S x y z =
      S x y (z - Fin.ofNat 64 (Ref.rhoOffsets.getD (x.val + 5 * y.val) 0))) := by
  refine ⟨by decide +kernel, by decide +kernel, roundConstants_bits, fun S x y z => ?_⟩
  rw [rho_spec]; rfl

/-- C37 (reference compiled with `KeccakReference`): the same with computed tables. -/
theorem C37_ref_KR (nr : Nat) (s : Bytes) : Ref.permuteNroundsKR nr s = Ref.permuteNrounds nr s := by
  rw [Ref.permuteNroundsKR, C39_tables.1, C39_tables.2.1]; rfl

/-- C38: KECCAK-p[1600, nr] is a bijection on bit strings of length 1600. -/
theorem C38_spec (nr : Nat) :
    (∀ S : Bits, S.length = 1600 → (Spec.KeccakP.keccakP nr S).length = 1600) ∧
    (∀ S T : Bits, S.length = 1600 → T.length = 1600 →
      Spec.KeccakP.keccakP nr S = Spec.KeccakP.keccakP nr T → S = T) ∧
    (∀ T : Bits, T.length = 1600 → ∃ S : Bits, S.length = 1600 ∧ Spec.KeccakP.keccakP nr S = T) := by
  refine ⟨fun S _ => length_toString _, ?_, ?_⟩
  · intro S T hS hT h
    have h := congrArg Spec.KeccakP.toArray h
    simp only [Spec.KeccakP.keccakP, toArray_toString] at h
    have h := Spec.KeccakP.rounds_injective nr h
    rw [← toString_toArray S hS, ← toString_toArray T hT, h]
  · intro T hT
    obtain ⟨A, hA⟩ := (Spec.KeccakP.rounds_bijective nr).2 (Spec.KeccakP.toArray T)
    refine ⟨Spec.KeccakP.toString A, length_toString _, ?_⟩
    rw [Spec.KeccakP.keccakP, toArray_toString, hA, toString_toArray T hT]

/-- C38: an implementation that computes KECCAK-p[1600, nr] permutes the set of 200-byte states. -/
theorem Computes.bijective {P : SnP} {nr : Nat} (h : Computes P nr) :
    (∀ s t : Bytes, s.length = 200 → t.length = 200 → P.permute s = P.permute t → s = t) ∧
    (∀ t : Bytes, t.length = 200 → ∃ s : Bytes, s.length = 200 ∧ P.permute s = t) := by
  obtain ⟨_, h2, h3⟩ := C38_spec nr
  refine ⟨?_, ?_⟩
  · intro s t hs ht e
    have e := congrArg Bits.ofBytes e
    rw [← h.permute s (by rw [hs, h.width]), ← h.permute t (by rw [ht, h.width])] at e
    exact Bits.ofBytes_injective (h2 _ _ (by simp [hs]) (by simp [ht]) e)
  · intro t ht
    obtain ⟨S, hS, e⟩ := h3 (Bits.ofBytes t) (by simp [ht])
    rw [← toString_toArray S hS, ← arr_unarr (Spec.KeccakP.toArray S), ← ofBytes_bytesOfLanes,
      h.permute _ (by rw [length_bytesOfLanes, h.width])] at e
    exact ⟨_, length_bytesOfLanes _, Bits.ofBytes_injective e⟩

/-- The reference implementation as an SnP for the modes (no fast loop in this implementation). -/
def Ref.snp (nr : Nat) : SnP := ⟨200, Ref.permuteNrounds nr, none⟩

theorem Ref.computes (nr : Nat) (hnr : nr ≤ 24) : Computes (Ref.snp nr) nr where
  valid := ⟨fun s hs => (C37_ref nr hnr s hs).1, by intro F hF; cases hF⟩
  width := rfl
  permute := fun s hs => ((C37_ref nr hnr s hs).2).symm

/-- C38 for the reference implementation. -/
theorem C38_ref (nr : Nat) (hnr : nr ≤ 24) :
    (∀ s t : Bytes, s.length = 200 → t.length = 200 → Ref.permuteNrounds nr s = Ref.permuteNrounds nr t → s = t) ∧
    (∀ t : Bytes, t.length = 200 → ∃ s : Bytes, s.length = 200 ∧ Ref.permuteNrounds nr s = t) :=
  (Ref.computes nr hnr).bijective

end KeccakP1600
