import Verif.Proofs.Relaned
import Verif.Proofs.KeccakPOpt

/-!
Bytes of 64-bit lanes, and of states made of 25 lanes.
-/

namespace KeccakP1600

/-- Byte `k` of a lane. -/
def byteOf (w : Lane) (k : Nat) : Byte := (w >>> (8 * k)).setWidth 8

theorem getLsbD_byteOf (w : Lane) (k t : Nat) (ht : t < 8) : (byteOf w k).getLsbD t = w.getLsbD (8 * k + t) := by
  simp [byteOf, ht]

theorem byte_ext {a b : Byte} (h : ∀ t, t < 8 → a.getLsbD t = b.getLsbD t) : a = b :=
  BitVec.eq_of_getLsbD_eq fun t ht => h t ht

theorem byteOf_not (w : Lane) (k : Nat) (hk : k < 8) : byteOf (~~~ w) k = ~~~ byteOf w k := by
  apply byte_ext; intro t ht
  rw [getLsbD_byteOf _ _ _ ht, BitVec.getLsbD_not, BitVec.getLsbD_not, getLsbD_byteOf _ _ _ ht]
  have : 8 * k + t < 64 := by omega
  simp [this, ht]

theorem byteOf_xor (v w : Lane) (k : Nat) : byteOf (v ^^^ w) k = byteOf v k ^^^ byteOf w k := by
  apply byte_ext; intro t ht
  simp [getLsbD_byteOf _ _ _ ht]

theorem byteOf_wordOfBytes (b : Bytes) (k : Nat) (hk : k < 8) : byteOf (wordOfBytes b) k = b.getD k 0 := by
  apply byte_ext; intro t ht
  rw [getLsbD_byteOf _ _ _ ht, getLsbD_wordOfBytes b ⟨8 * k + t, by omega⟩]
  rw [show (8 * k + t) / 8 = k by omega, show (8 * k + t) % 8 = t by omega]

theorem byteOf_shiftLeft (w : Lane) (o k : Nat) (hk : k < 8) :
    byteOf (w <<< (o * 8)) k = if o ≤ k then byteOf w (k - o) else 0 := by
  apply byte_ext; intro t ht
  rw [getLsbD_byteOf _ _ _ ht, BitVec.getLsbD_shiftLeft]
  have : 8 * k + t < 64 := by omega
  split
  · rw [getLsbD_byteOf _ _ _ ht, show 8 * k + t - o * 8 = 8 * (k - o) + t by omega]
    have : ¬ 8 * k + t < o * 8 := by omega
    simp [*]
  · have : 8 * k + t < o * 8 := by omega
    simp [this]

theorem byteOf_shiftRight (w : Lane) (o k : Nat) : byteOf (w >>> (o * 8)) k = byteOf w (o + k) := by
  apply byte_ext; intro t ht
  rw [getLsbD_byteOf _ _ _ ht, BitVec.getLsbD_ushiftRight, getLsbD_byteOf _ _ _ ht]
  congr 1; omega

theorem byteOf_setWidth (b : Byte) (k : Nat) : byteOf (b.setWidth 64) k = if k = 0 then b else 0 := by
  apply byte_ext; intro t ht
  rw [getLsbD_byteOf _ _ _ ht, BitVec.getLsbD_setWidth]
  by_cases h : k = 0
  · subst h
    have : t < 64 := by omega
    simp [this]
  · rw [BitVec.getLsbD_of_ge b (8 * k + t) (by omega)]; simp [h]

theorem lane_ext {v w : Lane} (h : ∀ k, k < 8 → byteOf v k = byteOf w k) : v = w := by
  apply BitVec.eq_of_getLsbD_eq; intro i hi
  have := congrArg (fun b => b.getLsbD (i % 8)) (h (i / 8) (by omega))
  simp only [getLsbD_byteOf _ _ _ (Nat.mod_lt i (by omega : 8 > 0))] at this
  rwa [show 8 * (i / 8) + i % 8 = i by omega] at this

theorem getElem?_bytesOfWord (w : Lane) (k : Nat) :
    (bytesOfWord w)[k]? = if k < 8 then some (byteOf w k) else none := by
  have e : ∀ k, ((w >>> (8 * k)) &&& 0xFF).setWidth 8 = byteOf w k := by
    intro k
    apply byte_ext; intro t ht
    have hc : ∀ k : Fin 8, (0xFF : Lane).getLsbD k.val = true := by decide
    rw [getLsbD_byteOf _ _ _ ht]
    simp only [BitVec.getLsbD_setWidth, ht, decide_true, Bool.true_and, BitVec.getLsbD_and,
      BitVec.getLsbD_ushiftRight, hc ⟨t, ht⟩, Bool.and_true]
  unfold bytesOfWord
  simp only [e, List.getElem?_map]
  split
  · rename_i h; simp [List.getElem?_range h]
  · rename_i h; simp [List.getElem?_eq_none (show (List.range 8).length ≤ k by simp; omega)]

theorem getElem?_bytesOfLanes (A : Lanes) (j : Nat) :
    (bytesOfLanes A)[j]? = if h : j < 200 then some (byteOf (A ⟨j / 8, by omega⟩) (j % 8)) else none := by
  split
  · rename_i h
    have e : j = j / 8 * 8 + j % 8 := by omega
    conv => lhs; rw [e]
    rw [bytesOfLanes, getElem?_flatMap_const _ _ 8 (fun i => length_bytesOfWord _) _ _ (by omega)]
    rw [List.getElem?_eq_getElem (show j / 8 < (List.finRange 25).length by simp; omega)]
    simp only [List.getElem_finRange, Option.bind_some, getElem?_bytesOfWord]
    rw [if_pos (by omega)]
    rfl
  · exact List.getElem?_eq_none (by rw [length_bytesOfLanes]; omega)

theorem bytesOfLanes_put (A : Lanes) (i : Fin 25) (w : Lane) :
    bytesOfLanes (put A i w) = Bytes.setAt (bytesOfLanes A) (i.val * 8) (bytesOfWord w) := by
  apply List.ext_getElem?; intro j
  rw [Bytes.getElem?_setAt, getElem?_bytesOfLanes, getElem?_bytesOfLanes]
  split
  · rename_i h
    simp only [Option.map_some, Option.some.injEq, put, length_bytesOfWord, List.getD_eq_getElem?_getD,
      getElem?_bytesOfWord]
    by_cases e : j / 8 = i.val
    · have e1 : (⟨j / 8, by omega⟩ : Fin 25) = i := Fin.ext e
      have e2 : i.val * 8 ≤ j ∧ j < i.val * 8 + 8 := by omega
      have e3 : j - i.val * 8 = j % 8 := by omega
      have e4 : j % 8 < 8 := by omega
      simp [e1, e2, e3, e4]
    · have e1 : ¬ (⟨j / 8, by omega⟩ : Fin 25) = i := fun h => e (congrArg Fin.val h)
      have e2 : ¬ (i.val * 8 ≤ j ∧ j < i.val * 8 + 8) := by omega
      simp only [e1, e2, if_false]
  · simp

theorem bytesOfLanes_put_xor (A : Lanes) (i : Fin 25) (w : Lane) :
    bytesOfLanes (put A i (A i ^^^ w)) = Bytes.xorAt (bytesOfLanes A) (i.val * 8) (bytesOfWord w) := by
  apply List.ext_getElem?; intro j
  rw [Bytes.getElem?_xorAt, getElem?_bytesOfLanes, getElem?_bytesOfLanes]
  split
  · rename_i h
    simp only [Option.map_some, Option.some.injEq, put, List.getD_eq_getElem?_getD, getElem?_bytesOfWord]
    by_cases e : j / 8 = i.val
    · have e1 : (⟨j / 8, by omega⟩ : Fin 25) = i := Fin.ext e
      have e2 : i.val * 8 ≤ j := by omega
      have e3 : j - i.val * 8 = j % 8 := by omega
      have e4 : j % 8 < 8 := by omega
      simp [e1, e2, e3, e4, byteOf_xor]
    · have e1 : ¬ (⟨j / 8, by omega⟩ : Fin 25) = i := fun h => e (congrArg Fin.val h)
      by_cases e2 : i.val * 8 ≤ j
      · have e3 : ¬ (j - i.val * 8 < 8) := by omega
        simp [e1, e2, e3]
      · simp [e1, e2]
  · simp

theorem bytesOfWord_wordOfBytes (b : Bytes) (h : b.length = 8) : bytesOfWord (wordOfBytes b) = b := by
  apply List.ext_getElem?; intro k
  rw [getElem?_bytesOfWord]
  split
  · rename_i hk
    rw [byteOf_wordOfBytes _ _ hk, List.getD_eq_getElem?_getD, List.getElem?_eq_getElem (by omega)]; rfl
  · rw [List.getElem?_eq_none (by omega)]

theorem wordOfBytes_bytesOfWord (w : Lane) : wordOfBytes (bytesOfWord w) = w := by
  apply lane_ext; intro k hk
  rw [byteOf_wordOfBytes _ _ hk, List.getD_eq_getElem?_getD, getElem?_bytesOfWord, if_pos hk]; rfl

theorem wordOfBytes_take (b : Bytes) : wordOfBytes (b.take 8) = wordOfBytes b := by
  apply lane_ext; intro k hk
  rw [byteOf_wordOfBytes _ _ hk, byteOf_wordOfBytes _ _ hk, List.getD_eq_getElem?_getD, List.getD_eq_getElem?_getD,
    List.getElem?_take, if_pos hk]

theorem slice_bytesOfLanes (A : Lanes) (i : Fin 25) (o len : Nat) (h : o + len ≤ 8) :
    Bytes.slice (bytesOfLanes A) (i.val * 8 + o) len = Bytes.slice (bytesOfWord (A i)) o len := by
  apply List.ext_getElem?; intro j
  rw [Bytes.getElem?_slice, Bytes.getElem?_slice]
  split
  · rename_i hj
    rw [getElem?_bytesOfLanes, getElem?_bytesOfWord, if_pos (by omega), dif_pos (by omega)]
    have e1 : (i.val * 8 + o + j) / 8 = i.val := by omega
    have e2 : (i.val * 8 + o + j) % 8 = o + j := by omega
    simp only [e1, e2, Fin.eta]
  · rfl

theorem xorAt_shift (s : Bytes) (p o : Nat) (d : Bytes) (w : Lane) (h : o + d.length ≤ 8)
    (hw : ∀ k, k < 8 → byteOf w k = if o ≤ k then d.getD (k - o) 0 else 0) :
    Bytes.xorAt s (p * 8) (bytesOfWord w) = Bytes.xorAt s (p * 8 + o) d := by
  apply List.ext_getElem?; intro j
  rw [Bytes.getElem?_xorAt, Bytes.getElem?_xorAt]
  cases s[j]? with
  | none => rfl
  | some b =>
    simp only [Option.map_some, Option.some.injEq, List.getD_eq_getElem?_getD, getElem?_bytesOfWord]
    congr 1
    by_cases h1 : p * 8 ≤ j
    · by_cases h2 : j - p * 8 < 8
      · simp only [h1, h2, if_true, Option.getD_some, hw _ h2]
        by_cases h3 : o ≤ j - p * 8
        · have h4 : p * 8 + o ≤ j := by omega
          have h5 : j - p * 8 - o = j - (p * 8 + o) := by omega
          simp [h3, h4, h5]
        · have h4 : ¬ p * 8 + o ≤ j := by omega
          simp [h3, h4]
      · have h4 : d[j - (p * 8 + o)]? = none := List.getElem?_eq_none (by omega)
        simp [h1, h2, h4]
    · have h4 : ¬ p * 8 + o ≤ j := by omega
      simp [h1, h4]

end KeccakP1600
