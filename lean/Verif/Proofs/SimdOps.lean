import Verif.Proofs.SimdRounds
import Verif.Proofs.LaneBytes

/-!
The operations on registers, in each lane.
-/

namespace Simd

open KeccakP1600 (Lane)

variable {n : Nat}

theorem or_shift_eq (a : Lane) (o : Nat) (h0 : 0 < o) (h : o < 64) :
    (a <<< o) ||| (a >>> (64 - o)) = KeccakP1600.Opt64.rol64 a o := by
  unfold KeccakP1600.Opt64.rol64
  apply BitVec.eq_of_getLsbD_eq; intro i hi
  simp only [BitVec.getLsbD_or, BitVec.getLsbD_xor, BitVec.getLsbD_shiftLeft, BitVec.getLsbD_ushiftRight]
  by_cases h : i < o
  · simp [h, hi]
  · have : a.getLsbD (64 - o + i) = false := BitVec.getLsbD_of_ge _ _ (by omega)
    simp [this]

theorem rotateLeft_eq (a : Lane) (o : Nat) (h0 : 0 < o) (h : o < 64) :
    a.rotateLeft o = KeccakP1600.Opt64.rol64 a o := by
  rw [← or_shift_eq a o h0 h, BitVec.rotateLeft_def, Nat.mod_eq_of_lt h]

/-- A shuffle of the bytes in which every byte of a lane comes from the same lane. -/
theorem shuffle_lane (a m : Vec n) (l : Fin n) (g : Nat → Nat)
    (hm : ∀ r < 8, (byte (m l) r).msb = false ∧ l.val / 2 * 2 + (byte (m l) r).toNat % 16 / 8 = l.val ∧
      (byte (m l) r).toNat % 8 = g r) :
    shuffleEpi8 a m l = KeccakP1600.wordOfBytes ((List.range 8).map fun r => byte (a l) (g r)) := by
  unfold shuffleEpi8
  congr 1
  apply List.map_congr_left
  intro r hr
  obtain ⟨h1, h2, h3⟩ := hm r (List.mem_range.mp hr)
  simp only [h1, Bool.false_eq_true, if_false, h2, h3]
  simp [Vec.at]

theorem bytes_rol (w : Lane) (g : Nat → Nat) (o : Nat) (h0 : 0 < o) (ho : o < 8) (hg : ∀ r < 8, g r = (r + 8 - o) % 8) :
    KeccakP1600.wordOfBytes ((List.range 8).map fun r => byte w (g r)) = KeccakP1600.Opt64.rol64 w (8 * o) := by
  rw [← or_shift_eq w (8 * o) (by omega) (by omega)]
  apply KeccakP1600.lane_ext
  intro k hk
  rw [KeccakP1600.byteOf_wordOfBytes _ _ hk]
  simp only [List.getD_eq_getElem?_getD, List.getElem?_map, List.getElem?_range hk, Option.map_some, Option.getD_some, hg k hk]
  apply KeccakP1600.byte_ext; intro t ht
  show (KeccakP1600.byteOf w _).getLsbD t = _
  rw [KeccakP1600.getLsbD_byteOf _ _ _ ht, KeccakP1600.getLsbD_byteOf _ _ _ ht]
  simp only [BitVec.getLsbD_or, BitVec.getLsbD_shiftLeft, BitVec.getLsbD_ushiftRight]
  have h64 : 8 * k + t < 64 := by omega
  by_cases h : k < o
  · have h1 : 8 * k + t < 8 * o := by omega
    rw [show (k + 8 - o) % 8 = k + 8 - o by omega, show 64 - 8 * o + (8 * k + t) = 8 * (k + 8 - o) + t by omega]
    simp [h1]
  · have h1 : ¬ 8 * k + t < 8 * o := by omega
    have h2 : w.getLsbD (64 - 8 * o + (8 * k + t)) = false := BitVec.getLsbD_of_ge _ _ (by omega)
    rw [show (k + 8 - o) % 8 = k - o by omega, h2, show 8 * k + t - 8 * o = 8 * (k - o) + t by omega]
    simp [h1, h64]

end Simd
