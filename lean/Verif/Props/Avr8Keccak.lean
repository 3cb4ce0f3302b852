import Verif.Proofs.Avr8Keccak
import Verif.Props.KeccakPOpt

/-!
# Property C73: the permutation in the compact AVR8 assembly of Keccak-p[1600]

`Avr8.Keccak` is a model of lines 207 to 726 of `KeccakP-1600-avr8-compact.s`.  The specification is `Spec/KeccakP.lean` (FIPS 202).
-/

namespace Avr8.Keccak

open KeccakP1600 (C37_ref)

theorem bytes_of (n : Nat) (h : n ≤ 24) (s : Bytes) (hs : s.length = 200) (c : Nat → Byte) (m : M)
    (e : L m = KeccakP1600.Ref.onWords KeccakP1600.Ref.roundConstants KeccakP1600.Ref.rhoOffsets (L (ofBytes s c)) n) :
    (bytes m).length = 200 ∧ Bits.ofBytes (bytes m) = Spec.KeccakP.keccakP n (Bits.ofBytes s) := by
  rw [bytes_L, e, L_ofBytes]
  exact C37_ref n h s hs

/-- C73: the three permutation functions access only the 200 bytes of the state, the 40 bytes on the stack and the tables, and are KECCAK-p[1600, nr] of FIPS 202,
for 1 to 24 rounds, whatever is on the stack and in the registers before.  Partial: the claim for every number of rounds up to 24 is false for no rounds (`C73_permute_zero`). -/
theorem C73_permute_partial (b c : Nat → Byte) (s : Bytes) (hs : s.length = 200) :
    (∀ nr : BitVec 16, 0 < nr.toNat → nr.toNat ≤ 24 → ∃ m, permuteNrounds b (ofBytes s c) nr = some m ∧ (bytes m).length = 200 ∧
      Bits.ofBytes (bytes m) = Spec.KeccakP.keccakP nr.toNat (Bits.ofBytes s)) ∧
    (∃ m, permute24 b (ofBytes s c) = some m ∧ (bytes m).length = 200 ∧ Bits.ofBytes (bytes m) = Spec.KeccakP.keccakP 24 (Bits.ofBytes s)) ∧
    (∃ m, permute12 b (ofBytes s c) = some m ∧ (bytes m).length = 200 ∧ Bits.ofBytes (bytes m) = Spec.KeccakP.keccakP 12 (Bits.ofBytes s)) := by
  refine ⟨fun nr h0 h => ?_, ?_, ?_⟩
  · obtain ⟨m, e, l⟩ := permuteNrounds_eq b (ofBytes s c) nr h0 h
    exact ⟨m, e, bytes_of _ h s hs c m l⟩
  · obtain ⟨m, e, l⟩ := permute_eq b (ofBytes s c) 24 (by decide) (by decide)
    exact ⟨m, e, bytes_of _ (by decide) s hs c m l⟩
  · obtain ⟨m, e, l⟩ := permute_eq b (ofBytes s c) 12 (by decide) (by decide)
    exact ⟨m, e, bytes_of _ (by decide) s hs c m l⟩

/-- C73: with no rounds the loop, which looks for the terminator after a round, takes the terminator and the bytes behind the table as a round constant. -/
theorem C73_permute_zero (b : Nat → Byte) (m : M) : permuteNrounds b m 0 = none := permute_zero b m

/-- C73: the bits of the count above the lower byte are ignored, and so are the upper three bits of that byte: 32 rounds behave as no rounds, 33 as one. -/
theorem C73_permute_wraps (b : Nat → Byte) (m : M) (nr : BitVec 16) : permuteNrounds b m nr = permuteNrounds b m (nr &&& 31) := by
  have h : (nr.setWidth 8 <<< 1 <<< 1 <<< 1 : Byte) = (nr &&& 31).setWidth 8 <<< 1 <<< 1 <<< 1 := by
    apply BitVec.eq_of_toNat_eq
    have e : (nr &&& 31).toNat = nr.toNat % 32 := by
      rw [BitVec.toNat_and]; exact Nat.and_two_pow_sub_one_eq_mod _ 5
    simp only [BitVec.toNat_shiftLeft, BitVec.toNat_setWidth, Nat.shiftLeft_eq, e]
    omega
  unfold permuteNrounds
  dsimp only
  rw [h]

/-- A state that meets the hypotheses, with 24 rounds as a 16-bit count. -/
example : (List.replicate 200 (0xA5 : Byte)).length = 200 ∧ 0 < (24 : BitVec 16).toNat ∧ (24 : BitVec 16).toNat ≤ 24 :=
  ⟨List.length_replicate, by decide, by decide⟩

/-- The rotation of the lane `0x8786858483828180` by one bit. -/
example : (List.range 8).map (left1 fun i => BitVec.ofNat 8 (i + 0x80)) = [0x01, 0x03, 0x05, 0x07, 0x09, 0x0b, 0x0d, 0x0f] := by decide

/-- The rho-pi table starts with lane 10, which gets lane 1 rotated by one bit, and ends with lane 1. -/
example : rhoPiConstants.head? = some (1, 0, 80) ∧ rhoPiConstants.getLast? = some (4, 0, 8) ∧ rhoPiConstants.length = 24 := by decide

end Avr8.Keccak
