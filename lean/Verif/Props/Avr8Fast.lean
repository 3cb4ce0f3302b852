import Verif.Proofs.Avr8Fast
import Verif.Props.Avr8Keccak

/-!
# Properties C75 and C76: the permutation in the fast AVR8 assembly of Keccak-p[1600]

`Avr8.Fast` is a model of lines 362 to 1121 of `KeccakP-1600-avr8-fast.s`.  The specification is `Spec/KeccakP.lean` (FIPS 202).
-/

namespace Avr8.Fast

open Avr8.Keccak (M ofBytes bytes bytes_of L word)
open KeccakP1600 (byteOf lane)
open KeccakP1600.Ref (rol64)

/-- C75: the three permutation functions of the fast code access only the 200 bytes of the state, the bytes on the stack and the tables, jump only to the begin of the routines for rotations, and are
KECCAK-p[1600, nr] of FIPS 202, for 1 to 24 rounds, wherever the constants are and whatever is on the stack and in the registers before.  Partial: the claim for every number of rounds up to 24 is false
for no rounds (`C75_permute_zero`). -/
theorem C75_permute_partial (base : BitVec 16) (b c : Nat → Byte) (s : Bytes) (hs : s.length = 200) :
    (∀ nr : BitVec 16, 0 < nr.toNat → nr.toNat ≤ 24 → ∃ m, permuteNrounds base b (ofBytes s c) nr = some m ∧ (bytes m).length = 200 ∧
      Bits.ofBytes (bytes m) = Spec.KeccakP.keccakP nr.toNat (Bits.ofBytes s)) ∧
    (∃ m, permute24 base b (ofBytes s c) = some m ∧ (bytes m).length = 200 ∧ Bits.ofBytes (bytes m) = Spec.KeccakP.keccakP 24 (Bits.ofBytes s)) ∧
    (∃ m, permute12 base b (ofBytes s c) = some m ∧ (bytes m).length = 200 ∧ Bits.ofBytes (bytes m) = Spec.KeccakP.keccakP 12 (Bits.ofBytes s)) := by
  refine ⟨fun nr h0 h => ?_, ?_, ?_⟩
  · obtain ⟨m, e, l⟩ := permuteNrounds_eq base b (ofBytes s c) nr h0 h
    exact ⟨m, e, bytes_of _ h s hs c m l⟩
  · obtain ⟨m, e, l⟩ := permute_eq base b (ofBytes s c) 24 (by decide) (by decide)
    exact ⟨m, e, bytes_of _ (by decide) s hs c m l⟩
  · obtain ⟨m, e, l⟩ := permute_eq base b (ofBytes s c) 12 (by decide) (by decide)
    exact ⟨m, e, bytes_of _ (by decide) s hs c m l⟩

/-- C75: with no rounds the loop, which looks for the terminator after a round, takes the terminator and the bytes behind the table as a round constant. -/
theorem C75_permute_zero (base : BitVec 16) (b : Nat → Byte) (m : M) : permuteNrounds base b m 0 = none := permute_zero base b m

/-- C76: an interrupt between theta and the use of the stack in rho and pi does not change what a round does.  Partial: an interrupt before theta does (`C76_interrupt_changes`). -/
theorem C76_interrupt_partial (base : BitVec 16) (b : Nat → Byte) (m : M) (r : Byte) (p : Nat) : roundInterrupted base b m r p = round base b m p := by
  unfold roundInterrupted round interrupt
  simp only [pushC_pushC]

/-- C76: an interrupt before theta replaces the first byte of the parities.  For the state 0 and one round, the result is not that of FIPS 202 for any return address with a byte that is not 0. -/
theorem C76_interrupt_changes (base : BitVec 16) (b c : Nat → Byte) (r : Byte) (hr : r ≠ 0) : ∃ m, permuteInterrupted base b (ofBytes (List.replicate 200 0) c) r 184 = some m ∧
    Bits.ofBytes (bytes m) ≠ Spec.KeccakP.keccakP 1 (Bits.ofBytes (List.replicate 200 0)) := by
  have hz : ∀ i, (ofBytes (List.replicate 200 0) c).a i = 0 := fun i => by
    show (List.replicate 200 (0 : Byte)).getD i 0 = 0
    rw [List.getD_eq_getElem?_getD, List.getElem?_replicate]
    split <;> rfl
  obtain ⟨m, e, l⟩ := interrupted base b (ofBytes (List.replicate 200 0) c) hz r
  obtain ⟨m0, e0, l0⟩ := interrupted base b (ofBytes (List.replicate 200 0) c) hz 0
  obtain ⟨m1, e1, w1, s1⟩ := (C75_permute_partial base b c (List.replicate 200 0) List.length_replicate).1 1 (by decide) (by decide)
  refine ⟨m, e, fun h => hr ?_⟩
  have hb : bytes m = bytes m1 := by
    apply Bits.ofBytes_injective
    rw [h]
    exact s1.symm
  have h1 : L m1 (lane 1 0) = rol64 (word fun k => if k = 0 then 0 else 0) 44 := by
    have : permuteInterrupted base b (ofBytes (List.replicate 200 0) c) 0 184 = permuteNrounds base b (ofBytes (List.replicate 200 0) c) 1 :=
      interrupted_zero base b _ hz
    rw [e0, e1] at this
    cases this
    exact l0
  rw [L_of_bytes _ _ hb, h1] at l
  have l2 := congrArg (fun w => byteOf (rol64 w 20) 0) l
  rw [Avr8.Keccak.rol64_rol64 _ _ _ (by decide) (by decide), Avr8.Keccak.rol64_rol64 _ _ _ (by decide) (by decide)] at l2
  replace l2 : byteOf (word fun k => if k = 0 then 0 else 0) 0 = byteOf (word fun k => if k = 0 then r else 0) 0 := l2
  rw [Avr8.Keccak.byteOf_word _ _ (by decide), Avr8.Keccak.byteOf_word _ _ (by decide)] at l2
  exact l2.symm

/-- A state that meets the hypotheses, with 24 rounds as a 16-bit count. -/
example : (List.replicate 200 (0xA5 : Byte)).length = 200 ∧ 0 < (24 : BitVec 16).toNat ∧ (24 : BitVec 16).toNat ≤ 24 :=
  ⟨List.length_replicate, by decide, by decide⟩

/-- A byte of a return address that is not 0. -/
example : (0x5A : Byte) ≠ 0 := by decide

/-- The rho-pi table starts with lane 10 and ends with lane 1; lane 8 has a rotation of seven bytes for the next lane, at offset 63. -/
example : Fast.rhoPiConstants.head? = some (1, 0, 80) ∧ Fast.rhoPiConstants[8]? = some (5, 63, 64) ∧ Fast.rhoPiConstants.getLast? = some (4, 0, 8) := by decide

end Avr8.Fast
