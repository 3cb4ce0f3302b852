import Verif.Proofs.Avr8Xoodoo
import Verif.Props.Xoodoo

/-!
# Property C74: the permutation in the AVR8 assembly of Xoodoo

`Avr8.Xoodoo` is a model of lines 362 to 1341 of `Xoodoo-avr8-u1.s`.  The specification is `Spec/Xoodoo.lean`.
-/

namespace Avr8.Xoodoo

open _root_.Xoodoo (C42_ref)

theorem bytes_of (n : Nat) (h : n ≤ 12) (s : Bytes) (hs : s.length = 48) (t : S) (e : lanes t = _root_.Xoodoo.Ref.onWords n (lanes (ofBytes s))) :
    (bytes t).length = 48 ∧ Bits.ofBytes (bytes t) = Spec.Xoodoo.xoodoo n (Bits.ofBytes s) := by
  rw [bytes_lanes, e, lanes_ofBytes s hs]
  exact (C42_ref s hs).1 n h

/-- C74: the three permutation functions are defined and are Xoodoo[nr], for 1 to 12 rounds.  Partial: the claim for every number of rounds up to 12 is false for no rounds
(`C74_permute_zero`). -/
theorem C74_permute_partial (s : Bytes) (hs : s.length = 48) :
    (∀ nr : BitVec 16, 0 < nr.toNat → nr.toNat ≤ 12 → ∃ t, permuteNrounds (ofBytes s) nr = some t ∧ (bytes t).length = 48 ∧
      Bits.ofBytes (bytes t) = Spec.Xoodoo.xoodoo nr.toNat (Bits.ofBytes s)) ∧
    (∃ t, permute6 (ofBytes s) = some t ∧ (bytes t).length = 48 ∧ Bits.ofBytes (bytes t) = Spec.Xoodoo.xoodoo 6 (Bits.ofBytes s)) ∧
    (∃ t, permute12 (ofBytes s) = some t ∧ (bytes t).length = 48 ∧ Bits.ofBytes (bytes t) = Spec.Xoodoo.xoodoo 12 (Bits.ofBytes s)) := by
  refine ⟨fun nr h0 h => ?_, ?_, ?_⟩
  · obtain ⟨t, e, l⟩ := permuteNrounds_eq (ofBytes s) nr h0 h
    exact ⟨t, e, bytes_of _ h s hs t l⟩
  · obtain ⟨t, e, l⟩ := permute_eq (ofBytes s) 6 (by decide) (by decide)
    exact ⟨t, e, bytes_of _ (by decide) s hs t l⟩
  · obtain ⟨t, e, l⟩ := permute_eq (ofBytes s) 12 (by decide) (by decide)
    exact ⟨t, e, bytes_of _ (by decide) s hs t l⟩

/-- C74: with no rounds the loop, which looks for the terminator after a round, takes the terminator as a round constant and goes on behind the table. -/
theorem C74_permute_zero (s : S) : permuteNrounds s 0 = none := permute_zero s

/-- C74: the round that is done with no rounds is not the identity: on the state of zeroes the round constant `0xFF`, which is the terminator, ends up in the first byte. -/
theorem C74_zero_changes : (round (ofBytes (List.replicate 48 0)) (prepare (ofBytes (List.replicate 48 0))) 24).map (fun r => (bytes r.1).head?) = some (some 0xFF) := by
  decide

/-- C74: only the lower seven bits of the count are used: 128 rounds behave as no rounds, 129 as one. -/
theorem C74_permute_wraps (s : S) (nr : BitVec 16) : permuteNrounds s nr = permuteNrounds s (nr &&& 127) := by
  have h : (nr.setWidth 8 <<< 1 : Byte) = (nr &&& 127).setWidth 8 <<< 1 := by
    apply BitVec.eq_of_toNat_eq
    have e : (nr &&& 127).toNat = nr.toNat % 128 := by
      rw [BitVec.toNat_and]; exact Nat.and_two_pow_sub_one_eq_mod _ 7
    simp only [BitVec.toNat_shiftLeft, BitVec.toNat_setWidth, Nat.shiftLeft_eq, e]
    omega
  unfold permuteNrounds
  dsimp only
  rw [h]

/-- A state that meets the hypotheses, with 12 rounds as a 16-bit count. -/
example : (List.replicate 48 (0xA5 : Byte)).length = 48 ∧ 0 < (12 : BitVec 16).toNat ∧ (12 : BitVec 16).toNat ≤ 12 :=
  ⟨List.length_replicate, by decide, by decide⟩

/-- The rotation of the lane `0x83828180` by one bit. -/
example : (left1 ⟨0x80, 0x81, 0x82, 0x83⟩).val = 0x07050301 := by decide

end Avr8.Xoodoo
