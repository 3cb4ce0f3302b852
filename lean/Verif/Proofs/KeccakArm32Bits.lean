import Verif.Model.KeccakArm32
import Verif.Proofs.KeccakPInplace32Bytes

/-! ## bit interleaving in the 32-bit ARM assembly -/

namespace KeccakP1600.Arm32

theorem armv7a_eq : armv7a = armv7m := by
  rw [armv7a, armv7m]
  congr 1

/-- the even bits of a word in its lower half -/
def evens (x : Word) : Word :=
  let t := x &&& (0x55555555 : Word)
  let t := t ||| (t >>> 1)
  let t := t &&& (0x33333333 : Word)
  let t := t ||| (t >>> 2)
  let t := t &&& (0x0F0F0F0F : Word)
  let t := t ||| (t >>> 4)
  t &&& (0x00FF00FF : Word)

/-- the odd bits of a word in its upper half -/
def odds (x : Word) : Word :=
  let t := x &&& (0xAAAAAAAA : Word)
  let t := t ||| (t <<< 1)
  let t := t &&& (0xCCCCCCCC : Word)
  let t := t ||| (t <<< 2)
  let t := t &&& (0xF0F0F0F0 : Word)
  let t := t ||| (t <<< 4)
  let t := t &&& (0xFF00FF00 : Word)
  t ||| (t <<< 8)

theorem evens_low (x : Word) : ∀ j : Fin 32, (bfi (evens x) (evens x) 8 8 >>> 8).getLsbD j.val =
    (decide (j.val < 16) && x.getLsbD (2 * j.val)) := by
  intro j
  fin_cases j <;> simp [evens, bfi, field, BitVec.getLsbD_ushiftRight, BitVec.getLsbD_shiftLeft]

theorem evens_high (x : Word) : ∀ j : Fin 32, ((evens x ||| (evens x >>> 8)) <<< 16).getLsbD j.val =
    (decide (16 ≤ j.val) && x.getLsbD (2 * (j.val - 16))) := by
  intro j
  fin_cases j <;> simp [evens, BitVec.getLsbD_ushiftRight, BitVec.getLsbD_shiftLeft]

theorem odds_low (x : Word) : ∀ j : Fin 32, (odds x >>> 16).getLsbD j.val =
    (decide (j.val < 16) && x.getLsbD (2 * j.val + 1)) := by
  intro j
  fin_cases j <;> simp [odds, BitVec.getLsbD_ushiftRight, BitVec.getLsbD_shiftLeft]

theorem odds_high (x : Word) : ∀ j : Fin 32, (bfc (odds x) 0 16).getLsbD j.val =
    (decide (16 ≤ j.val) && x.getLsbD (2 * (j.val - 16) + 1)) := by
  intro j
  fin_cases j <;> simp [odds, bfc, field, BitVec.getLsbD_ushiftRight, BitVec.getLsbD_shiftLeft]

theorem toBitInterleaving_words (x0 x1 : Word) :
    (bfi (evens x0) (evens x0) 8 8 >>> 8) ^^^ ((evens x1 ||| (evens x1 >>> 8)) <<< 16) =
      (Inplace32.toBitInterleaving x0 x1).1 ∧
    (odds x0 >>> 16) ^^^ bfc (odds x1) 0 16 = (Inplace32.toBitInterleaving x0 x1).2 := by
  constructor
  · apply BitVec.eq_of_getLsbD_eq; intro i hi
    rw [BitVec.getLsbD_xor, evens_low x0 ⟨i, hi⟩, evens_high x1 ⟨i, hi⟩]
    simp only [Inplace32.toBitInterleaving]
    rw [Inplace32.getLsbD_lows _ _ _ hi]
    by_cases h : i < 16
    · rw [if_pos h, Inplace32.getLsbD_prepareTo _ _ hi, if_pos h]
      simp [h, show ¬ 16 ≤ i by omega]
    · rw [if_neg h, Inplace32.getLsbD_prepareTo _ _ (by omega), if_pos (by omega)]
      simp [h, show 16 ≤ i by omega]
  · apply BitVec.eq_of_getLsbD_eq; intro i hi
    rw [BitVec.getLsbD_xor, odds_low x0 ⟨i, hi⟩, odds_high x1 ⟨i, hi⟩]
    simp only [Inplace32.toBitInterleaving]
    rw [Inplace32.getLsbD_highs _ _ _ hi]
    by_cases h : i < 16
    · rw [if_pos h, Inplace32.getLsbD_prepareTo _ _ (by omega), if_neg (by omega)]
      simp [h, show ¬ 16 ≤ i by omega]
    · rw [if_neg h, Inplace32.getLsbD_prepareTo _ _ hi, if_neg h]
      simp [h, show 16 ≤ i by omega]

theorem toBitInterleaving_add (x0 x1 s0 s1 : Word) : toBitInterleaving armv7m x0 x1 s0 s1 false =
    (s0 ^^^ (Inplace32.toBitInterleaving x0 x1).1, s1 ^^^ (Inplace32.toBitInterleaving x0 x1).2) := by
  obtain ⟨h1, h2⟩ := toBitInterleaving_words x0 x1
  rw [← h1, ← h2, ← BitVec.xor_assoc, ← BitVec.xor_assoc]
  rfl

theorem toBitInterleaving_over (x0 x1 s0 s1 : Word) : toBitInterleaving armv7m x0 x1 s0 s1 true =
    Inplace32.toBitInterleaving x0 x1 := by
  obtain ⟨h1, h2⟩ := toBitInterleaving_words x0 x1
  exact Prod.ext h1 h2

theorem bfi_lows (a b : Word) : bfi a b 16 16 = (a &&& (0x0000FFFF : Word)) ||| (b <<< 16) := by
  rw [bfi, show ~~~ field 16 16 = (0x0000FFFF : Word) by decide, show field 16 16 = (0xFFFF0000 : Word) by decide]
  congr 1
  apply BitVec.eq_of_getLsbD_eq; intro i hi
  rw [BitVec.getLsbD_and, BitVec.getLsbD_shiftLeft]
  have := Inplace32.mask_high ⟨i, hi⟩
  simp only at this
  rw [this]
  by_cases h : i < 16
  · simp [h]
  · simp [show 16 ≤ i by omega]

theorem bfc_highs (a b : Word) : bfc b 0 16 ||| (a >>> 16) = (a >>> 16) ||| (b &&& (0xFFFF0000 : Word)) := by
  rw [bfc, show ~~~ field 0 16 = (0xFFFF0000 : Word) by decide, BitVec.or_comm]

theorem fromBitInterleaving_eq (x0 x1 : Word) :
    fromBitInterleaving armv7m x0 x1 = Inplace32.fromBitInterleaving x0 x1 := by
  rw [Inplace32.fromBitInterleaving, ← bfi_lows, ← bfc_highs]
  rfl

end KeccakP1600.Arm32
