import Verif.Proofs.Xoodoo
import Verif.Proofs.ByteAccess

/-!
Bytes of 32-bit lanes, and of states made of 12 lanes; the byte access functions of the Xoodoo implementations.
-/

namespace Xoodoo

open KeccakP1600 (loopM put byte_ext getElem?_flatMap_const)

/-- Byte `k` of a lane. -/
def byteOf (w : Lane) (k : Nat) : Byte := (w >>> (8 * k)).setWidth 8

theorem getLsbD_byteOf (w : Lane) (k t : Nat) (ht : t < 8) : (byteOf w k).getLsbD t = w.getLsbD (8 * k + t) := by
  simp [byteOf, ht]

theorem byteOf_not (w : Lane) (k : Nat) (hk : k < 4) : byteOf (~~~ w) k = ~~~ byteOf w k := by
  apply byte_ext; intro t ht
  rw [getLsbD_byteOf _ _ _ ht, BitVec.getLsbD_not, BitVec.getLsbD_not, getLsbD_byteOf _ _ _ ht]
  have : 8 * k + t < 32 := by omega
  simp [this, ht]

theorem byteOf_xor (v w : Lane) (k : Nat) : byteOf (v ^^^ w) k = byteOf v k ^^^ byteOf w k := by
  apply byte_ext; intro t ht
  simp [getLsbD_byteOf _ _ _ ht]

theorem byteOf_wordOfBytes (b : Bytes) (k : Nat) (hk : k < 4) : byteOf (wordOfBytes b) k = b.getD k 0 := by
  apply byte_ext; intro t ht
  rw [getLsbD_byteOf _ _ _ ht, getLsbD_wordOfBytes b ⟨8 * k + t, by omega⟩]
  rw [show (8 * k + t) / 8 = k by omega, show (8 * k + t) % 8 = t by omega]

theorem byteOf_shiftLeft (w : Lane) (o k : Nat) (hk : k < 4) :
    byteOf (w <<< (o * 8)) k = if o ≤ k then byteOf w (k - o) else 0 := by
  apply byte_ext; intro t ht
  rw [getLsbD_byteOf _ _ _ ht, BitVec.getLsbD_shiftLeft]
  have : 8 * k + t < 32 := by omega
  split
  · rw [getLsbD_byteOf _ _ _ ht, show 8 * k + t - o * 8 = 8 * (k - o) + t by omega]
    have : ¬ 8 * k + t < o * 8 := by omega
    simp [*]
  · have : 8 * k + t < o * 8 := by omega
    simp [this]

theorem byteOf_shiftRight (w : Lane) (o k : Nat) : byteOf (w >>> (o * 8)) k = byteOf w (o + k) := by
  apply byte_ext; intro t ht
  rw [getLsbD_byteOf _ _ _ ht, BitVec.getLsbD_ushiftRight, getLsbD_byteOf _ _ _ ht]
  congr 1; omega

theorem byteOf_setWidth (b : Byte) (k : Nat) : byteOf (b.setWidth 32) k = if k = 0 then b else 0 := by
  apply byte_ext; intro t ht
  rw [getLsbD_byteOf _ _ _ ht, BitVec.getLsbD_setWidth]
  by_cases h : k = 0
  · subst h
    have : t < 32 := by omega
    simp [this]
  · rw [BitVec.getLsbD_of_ge b (8 * k + t) (by omega)]; simp [h]

theorem lane_ext {v w : Lane} (h : ∀ k, k < 4 → byteOf v k = byteOf w k) : v = w := by
  apply BitVec.eq_of_getLsbD_eq; intro i hi
  have := congrArg (fun b => b.getLsbD (i % 8)) (h (i / 8) (by omega))
  simp only [getLsbD_byteOf _ _ _ (Nat.mod_lt i (by omega : 8 > 0))] at this
  rwa [show 8 * (i / 8) + i % 8 = i by omega] at this

theorem getElem?_bytesOfWord (w : Lane) (k : Nat) :
    (bytesOfWord w)[k]? = if k < 4 then some (byteOf w k) else none := by
  have e : ∀ k, ((w >>> (8 * k)) &&& 0xFF).setWidth 8 = byteOf w k := by
    intro k
    apply byte_ext; intro t ht
    have hc : ∀ k : Fin 8, (0xFF : Lane).getLsbD k.val = true := by decide
    rw [getLsbD_byteOf _ _ _ ht]
    simp only [BitVec.getLsbD_setWidth, ht, decide_true, Bool.true_and, BitVec.getLsbD_and,
      BitVec.getLsbD_ushiftRight, hc ⟨t, ht⟩, Bool.and_true]
  unfold bytesOfWord
  simp only [e, List.getElem?_map]
  split
  · rename_i h; simp [List.getElem?_range h]
  · rename_i h; simp [List.getElem?_eq_none (show (List.range 4).length ≤ k by simp; omega)]

theorem getElem?_bytesOfLanes (A : Lanes) (j : Nat) :
    (bytesOfLanes A)[j]? = if h : j < 48 then some (byteOf (A ⟨j / 4, by omega⟩) (j % 4)) else none := by
  split
  · rename_i h
    have e : j = j / 4 * 4 + j % 4 := by omega
    conv => lhs; rw [e]
    rw [bytesOfLanes, getElem?_flatMap_const _ _ 4 (fun i => length_bytesOfWord _) _ _ (by omega)]
    rw [List.getElem?_eq_getElem (show j / 4 < (List.finRange 12).length by simp; omega)]
    simp only [List.getElem_finRange, Option.bind_some, getElem?_bytesOfWord]
    rw [if_pos (by omega)]
    rfl
  · exact List.getElem?_eq_none (by rw [length_bytesOfLanes]; omega)

theorem bytesOfLanes_put (A : Lanes) (i : Fin 12) (w : Lane) :
    bytesOfLanes (put A i w) = Bytes.setAt (bytesOfLanes A) (i.val * 4) (bytesOfWord w) := by
  apply List.ext_getElem?; intro j
  rw [Bytes.getElem?_setAt, getElem?_bytesOfLanes, getElem?_bytesOfLanes]
  split
  · rename_i h
    simp only [Option.map_some, Option.some.injEq, put, length_bytesOfWord, List.getD_eq_getElem?_getD,
      getElem?_bytesOfWord]
    by_cases e : j / 4 = i.val
    · have e1 : (⟨j / 4, by omega⟩ : Fin 12) = i := Fin.ext e
      have e2 : i.val * 4 ≤ j ∧ j < i.val * 4 + 4 := by omega
      have e3 : j - i.val * 4 = j % 4 := by omega
      have e4 : j % 4 < 4 := by omega
      simp [e1, e2, e3, e4]
    · have e1 : ¬ (⟨j / 4, by omega⟩ : Fin 12) = i := fun h => e (congrArg Fin.val h)
      have e2 : ¬ (i.val * 4 ≤ j ∧ j < i.val * 4 + 4) := by omega
      simp only [e1, e2, if_false]
  · simp

theorem bytesOfLanes_put_xor (A : Lanes) (i : Fin 12) (w : Lane) :
    bytesOfLanes (put A i (A i ^^^ w)) = Bytes.xorAt (bytesOfLanes A) (i.val * 4) (bytesOfWord w) := by
  apply List.ext_getElem?; intro j
  rw [Bytes.getElem?_xorAt, getElem?_bytesOfLanes, getElem?_bytesOfLanes]
  split
  · rename_i h
    simp only [Option.map_some, Option.some.injEq, put, List.getD_eq_getElem?_getD, getElem?_bytesOfWord]
    by_cases e : j / 4 = i.val
    · have e1 : (⟨j / 4, by omega⟩ : Fin 12) = i := Fin.ext e
      have e2 : i.val * 4 ≤ j := by omega
      have e3 : j - i.val * 4 = j % 4 := by omega
      have e4 : j % 4 < 4 := by omega
      simp [e1, e2, e3, e4, byteOf_xor]
    · have e1 : ¬ (⟨j / 4, by omega⟩ : Fin 12) = i := fun h => e (congrArg Fin.val h)
      by_cases e2 : i.val * 4 ≤ j
      · have e3 : ¬ (j - i.val * 4 < 4) := by omega
        simp [e1, e2, e3]
      · simp [e1, e2]
  · simp

theorem bytesOfWord_wordOfBytes (b : Bytes) (h : b.length = 4) : bytesOfWord (wordOfBytes b) = b := by
  apply List.ext_getElem?; intro k
  rw [getElem?_bytesOfWord]
  split
  · rename_i hk
    rw [byteOf_wordOfBytes _ _ hk, List.getD_eq_getElem?_getD, List.getElem?_eq_getElem (by omega)]; rfl
  · rw [List.getElem?_eq_none (by omega)]

theorem wordOfBytes_bytesOfWord (w : Lane) : wordOfBytes (bytesOfWord w) = w := by
  apply lane_ext; intro k hk
  rw [byteOf_wordOfBytes _ _ hk, List.getD_eq_getElem?_getD, getElem?_bytesOfWord, if_pos hk]; rfl

theorem wordOfBytes_take (b : Bytes) : wordOfBytes (b.take 4) = wordOfBytes b := by
  apply lane_ext; intro k hk
  rw [byteOf_wordOfBytes _ _ hk, byteOf_wordOfBytes _ _ hk, List.getD_eq_getElem?_getD, List.getD_eq_getElem?_getD,
    List.getElem?_take, if_pos hk]

theorem slice_bytesOfLanes (A : Lanes) (i : Fin 12) (o len : Nat) (h : o + len ≤ 4) :
    Bytes.slice (bytesOfLanes A) (i.val * 4 + o) len = Bytes.slice (bytesOfWord (A i)) o len := by
  apply List.ext_getElem?; intro j
  rw [Bytes.getElem?_slice, Bytes.getElem?_slice]
  split
  · rename_i hj
    rw [getElem?_bytesOfLanes, getElem?_bytesOfWord, if_pos (by omega), dif_pos (by omega)]
    have e1 : (i.val * 4 + o + j) / 4 = i.val := by omega
    have e2 : (i.val * 4 + o + j) % 4 = o + j := by omega
    simp only [e1, e2, Fin.eta]
  · rfl

theorem xorAt_shift (s : Bytes) (p o : Nat) (d : Bytes) (w : Lane) (h : o + d.length ≤ 4)
    (hw : ∀ k, k < 4 → byteOf w k = if o ≤ k then d.getD (k - o) 0 else 0) :
    Bytes.xorAt s (p * 4) (bytesOfWord w) = Bytes.xorAt s (p * 4 + o) d := by
  apply List.ext_getElem?; intro j
  rw [Bytes.getElem?_xorAt, Bytes.getElem?_xorAt]
  cases s[j]? with
  | none => rfl
  | some b =>
    simp only [Option.map_some, Option.some.injEq, List.getD_eq_getElem?_getD, getElem?_bytesOfWord]
    congr 1
    by_cases h1 : p * 4 ≤ j
    · by_cases h2 : j - p * 4 < 4
      · simp only [h1, h2, if_true, Option.getD_some, hw _ h2]
        by_cases h3 : o ≤ j - p * 4
        · have h4 : p * 4 + o ≤ j := by omega
          have h5 : j - p * 4 - o = j - (p * 4 + o) := by omega
          simp [h3, h4, h5]
        · have h4 : ¬ p * 4 + o ≤ j := by omega
          simp [h3, h4]
      · have h4 : d[j - (p * 4 + o)]? = none := List.getElem?_eq_none (by omega)
        simp [h1, h2, h4]
    · have h4 : ¬ p * 4 + o ≤ j := by omega
      simp [h1, h4]

theorem bytesOfLanes_zero : bytesOfLanes (fun _ => 0) = List.replicate 48 0 := by decide +kernel

namespace Opt

theorem getLane_some {A : Lanes} {i : Nat} (h : i < 12) : getLane A i = some (A ⟨i, h⟩) := by simp [getLane, h]

theorem setLane_some {A : Lanes} {i : Nat} (h : i < 12) (w : Lane) : setLane A i w = some (put A ⟨i, h⟩ w) := by
  simp [setLane, h]

theorem readLane_some {d : Bytes} (h : 4 ≤ d.length) : readLane d = some (wordOfBytes d) := by
  rw [readLane, SnP.readBuf_some h]
  simp [wordOfBytes_take]

theorem take4 {d : Bytes} (h : 4 ≤ d.length) : bytesOfWord (wordOfBytes d) = d.take 4 := by
  rw [← wordOfBytes_take, bytesOfWord_wordOfBytes _ (by simp; omega)]

theorem xorLane_eq (A : Lanes) (i : Nat) (w : Lane) (h : i < 12) :
    ∃ A', xorLane A i w = some A' ∧ bytesOfLanes A' = Bytes.xorAt (bytesOfLanes A) (i * 4) (bytesOfWord w) := by
  refine ⟨_, by rw [xorLane, getLane_some h]; exact setLane_some h _, ?_⟩
  rw [bytesOfLanes_put_xor]

theorem memLane_eq (o : Nat) (d : Bytes) (h : o + d.length ≤ 4) :
    ∃ w, memLane o d = some w ∧ ∀ k, k < 4 → byteOf w k = if o ≤ k then d.getD (k - o) 0 else 0 := by
  refine ⟨wordOfBytes (Bytes.setAt (Bytes.zeros 4) o d), by rw [memLane, if_pos h], fun k hk => ?_⟩
  rw [byteOf_wordOfBytes _ _ hk, Bytes.getD_setAt _ _ _ _ (by simpa using hk)]
  have hz : (Bytes.zeros 4).getD k 0 = 0 := by
    have : k = 0 ∨ k = 1 ∨ k = 2 ∨ k = 3 := by omega
    rcases this with rfl | rfl | rfl | rfl <;> rfl
  rw [hz]
  by_cases h1 : o ≤ k
  · by_cases h2 : k < o + d.length
    · rw [if_pos ⟨h1, h2⟩, if_pos h1]
    · rw [if_neg (by omega), if_pos h1, List.getD_eq_getElem?_getD, List.getElem?_eq_none (by omega)]; rfl
  · rw [if_neg (by omega), if_neg h1]

theorem slice_take (d : Bytes) (n : Nat) : Bytes.slice d 0 n = d.take n := by simp [Bytes.slice]

theorem addAll_loop (d : Bytes) : ∀ n i A, (i + n) ≤ 12 → (i + n) * 4 ≤ d.length →
    ∃ A', loopM (fun i A => do
      let w ← readLane (d.drop (i * 4))
      xorLane A i w) i n A = some A' ∧
      bytesOfLanes A' = Bytes.xorAt (bytesOfLanes A) (i * 4) (Bytes.slice d (i * 4) (n * 4)) := by
  intro n
  induction n with
  | zero => intro i A _ _; exact ⟨A, rfl, by simp [Bytes.slice]⟩
  | succ n ih =>
    intro i A h1 h2
    obtain ⟨A1, e1, e2⟩ := xorLane_eq A i (wordOfBytes (d.drop (i * 4))) (by omega)
    obtain ⟨A2, e3, e4⟩ := ih (i + 1) A1 (by omega) (by omega)
    refine ⟨A2, ?_, ?_⟩
    · rw [loopM, readLane_some (by simp; omega)]
      simp only [Option.bind_eq_bind, Option.bind_some, e1] at e3 ⊢
      exact e3
    · rw [e4, e2, take4 (by simp; omega)]
      have hl : (Bytes.slice d (i * 4) 4).length = 4 := Bytes.length_slice_of_le (by omega)
      rw [show (d.drop (i * 4)).take 4 = Bytes.slice d (i * 4) 4 from rfl,
        show (i + 1) * 4 = i * 4 + (Bytes.slice d (i * 4) 4).length by rw [hl]; omega, Bytes.xorAt_append, hl,
        Relaned.slice_append, show (n + 1) * 4 = 4 + n * 4 by omega]

theorem addWords_eq : ∀ fuel A lane cur sizeLeft, sizeLeft < fuel → lane * 4 + sizeLeft ≤ 48 →
    sizeLeft ≤ cur.length →
    ∃ A', addWords fuel A lane cur sizeLeft =
        some (A', lane + sizeLeft / 4, cur.drop (sizeLeft / 4 * 4), sizeLeft % 4) ∧
      bytesOfLanes A' = Bytes.xorAt (bytesOfLanes A) (lane * 4) (cur.take (sizeLeft / 4 * 4)) := by
  intro fuel
  induction fuel with
  | zero => intro _ _ _ _ h; omega
  | succ fuel ih =>
    intro A lane cur sizeLeft hf h1 h2
    rw [addWords]
    split
    · rename_i h
      obtain ⟨A1, e1, e2⟩ := xorLane_eq A lane (wordOfBytes cur) (by omega)
      obtain ⟨A2, e3, e4⟩ := ih A1 (lane + 1) (cur.drop 4) (sizeLeft - 4) (by omega) (by omega) (by simp; omega)
      refine ⟨A2, ?_, ?_⟩
      · rw [readLane_some (by omega)]
        simp only [Option.bind_eq_bind, Option.bind_some, e1]
        rw [e3, List.drop_drop, show lane + 1 + (sizeLeft - 4) / 4 = lane + sizeLeft / 4 by omega,
          show 4 + (sizeLeft - 4) / 4 * 4 = sizeLeft / 4 * 4 by omega,
          show (sizeLeft - 4) % 4 = sizeLeft % 4 by omega]
      · rw [e4, e2, take4 (by omega)]
        have hl : (cur.take 4).length = 4 := by simp; omega
        rw [show (lane + 1) * 4 = lane * 4 + (cur.take 4).length by rw [hl]; omega, Bytes.xorAt_append,
          show sizeLeft / 4 * 4 = 4 + (sizeLeft - 4) / 4 * 4 by omega, List.take_add]
    · rename_i h
      refine ⟨A, ?_, ?_⟩
      · rw [show sizeLeft / 4 = 0 by omega, show sizeLeft % 4 = sizeLeft by omega]; simp
      · rw [show sizeLeft / 4 = 0 by omega]; simp

theorem addPart_eq (A : Lanes) (p o : Nat) (d : Bytes) (hd : o + d.length ≤ 4) (hp : p < 12) :
    ∃ A', ((memLane o d).bind fun w => xorLane A p w) = some A' ∧
      bytesOfLanes A' = Bytes.xorAt (bytesOfLanes A) (p * 4 + o) d := by
  obtain ⟨w, e1, e2⟩ := memLane_eq o d hd
  obtain ⟨A1, e3, e4⟩ := xorLane_eq A p w hp
  refine ⟨A1, by rw [e1]; exact e3, ?_⟩
  rw [e4, xorAt_shift _ _ o d w hd e2]

theorem addFirst_eq (A : Lanes) (d : Bytes) (offset length : Nat) (h : offset + length ≤ 48)
    (hd : length ≤ d.length) :
    ∃ A' k L, k ≤ length ∧ (length = k ∨ L * 4 = offset + k) ∧
      addFirst A d offset length =
        some (A', L, d.drop k, length - k) ∧
      bytesOfLanes A' = Bytes.xorAt (bytesOfLanes A) offset (d.take k) := by
  simp only [addFirst, Option.bind_eq_bind]
  by_cases hc : length > 0 ∧ offset % 4 ≠ 0
  · rw [if_pos hc]
    generalize hk : (if 4 - offset % 4 > length then length else 4 - offset % 4) = k
    have hk1 : k ≤ length := by split at hk <;> omega
    have hk2 : offset % 4 + k ≤ 4 := by split at hk <;> omega
    have hk3 : length = k ∨ (offset / 4 + 1) * 4 = offset + k := by split at hk <;> omega
    have hk4 : 0 < k := by split at hk <;> omega
    have hl : (d.take k).length = k := by simp; omega
    obtain ⟨A1, e1, e2⟩ := addPart_eq A (offset / 4) (offset % 4) (d.take k) (by omega) (by omega)
    refine ⟨A1, k, _, hk1, hk3, ?_, ?_⟩
    · rw [SnP.readBuf_some (by omega)]
      simp only [Option.bind_some]
      rw [← Option.bind_assoc, e1]
      simp only [Option.bind_some]
    · rw [e2, show offset / 4 * 4 + offset % 4 = offset by omega]
  · rw [if_neg hc]
    exact ⟨A, 0, offset / 4, by omega, by omega, by simp, by simp⟩

theorem addBytes_eq (A : Lanes) (d : Bytes) (offset length : Nat) (h : offset + length ≤ 48) (hd : length ≤ d.length) :
    ∃ A', addBytes A d offset length = some A' ∧
      bytesOfLanes A' = Bytes.xorAt (bytesOfLanes A) offset (d.take length) := by
  rw [addBytes]
  by_cases h48 : length = 48
  · subst h48
    obtain rfl : offset = 0 := by omega
    obtain ⟨A1, e1, e2⟩ := addAll_loop d 12 0 A (by omega) (by omega)
    refine ⟨A1, by rw [if_pos rfl]; exact e1, ?_⟩
    rw [e2, Nat.zero_mul, slice_take]
  · rw [if_neg h48]
    obtain ⟨A1, k, L, hk, hL, e1, e2⟩ := addFirst_eq A d offset length h hd
    simp only [Option.bind_eq_bind]
    rw [e1]
    simp only [Option.bind_some]
    by_cases hz : length = k
    · subst hz
      have e3 : addWords (length + 1) A1 L (d.drop length) (length - length) = some (A1, L, d.drop length, 0) := by
        rw [addWords, Nat.sub_self, if_neg (by omega)]
      refine ⟨A1, ?_, e2⟩
      rw [e3]
      simp
    · have hL : L * 4 = offset + k := by omega
      obtain ⟨A2, e3, e4⟩ := addWords_eq (length + 1) A1 L (d.drop k) (length - k) (by omega) (by omega)
        (by simp; omega)
      rw [e3]
      simp only [Option.bind_some, List.drop_drop]
      have hl : (d.take k).length = k := by simp; omega
      rw [e2, hL, show offset + k = offset + (d.take k).length by rw [hl], Bytes.xorAt_append, ← List.take_add] at e4
      generalize hm : k + (length - k) / 4 * 4 = m at *
      generalize hr : (length - k) % 4 = r at *
      have hmr : m + r = length := by omega
      split
      · rename_i hpos
        have hl2 : ((d.drop m).take r).length = r := by simp; omega
        obtain ⟨A3, e5, e6⟩ := addPart_eq A2 (L + (length - k) / 4) 0 ((d.drop m).take r) (by omega) (by omega)
        refine ⟨A3, ?_, ?_⟩
        · rw [SnP.readBuf_some (by simp; omega)]
          exact e5
        · have hl3 : (d.take m).length = m := by simp; omega
          rw [e6, e4, Nat.add_zero, show (L + (length - k) / 4) * 4 = offset + (d.take m).length by rw [hl3]; omega,
            Bytes.xorAt_append, ← List.take_add, hmr]
      · rename_i hpos
        refine ⟨A2, rfl, ?_⟩
        rw [e4, show m = length by omega]

theorem overwriteAll_loop (d : Bytes) : ∀ n i A, (i + n) ≤ 12 → (i + n) * 4 ≤ d.length →
    ∃ A', loopM (fun i A => do
      let w ← readLane (d.drop (i * 4))
      setLane A i w) i n A = some A' ∧
      bytesOfLanes A' = Bytes.setAt (bytesOfLanes A) (i * 4) (Bytes.slice d (i * 4) (n * 4)) := by
  intro n
  induction n with
  | zero => intro i A _ _; exact ⟨A, rfl, by simp [Bytes.slice]⟩
  | succ n ih =>
    intro i A h1 h2
    obtain ⟨A2, e3, e4⟩ := ih (i + 1) (put A ⟨i, by omega⟩ (wordOfBytes (d.drop (i * 4)))) (by omega) (by omega)
    refine ⟨A2, ?_, ?_⟩
    · rw [loopM, readLane_some (by simp; omega)]
      simp only [Option.bind_eq_bind, Option.bind_some, setLane_some (show i < 12 by omega)] at e3 ⊢
      exact e3
    · rw [e4, bytesOfLanes_put, take4 (by simp; omega)]
      have hl : (Bytes.slice d (i * 4) 4).length = 4 := Bytes.length_slice_of_le (by omega)
      rw [show (d.drop (i * 4)).take 4 = Bytes.slice d (i * 4) 4 from rfl,
        show (i + 1) * 4 = i * 4 + (Bytes.slice d (i * 4) 4).length by rw [hl]; omega, Bytes.setAt_append, hl,
        Relaned.slice_append, show (n + 1) * 4 = 4 + n * 4 by omega]

theorem memSet_eq (A : Lanes) (o : Nat) (d : Bytes) :
    bytesOfLanes (lanesOfBytes (Bytes.setAt (bytesOfLanes A) o d)) = Bytes.setAt (bytesOfLanes A) o d :=
  bytesOfLanes_lanesOfBytes _ (by simp [length_bytesOfLanes])

theorem overwriteBytes_eq (A : Lanes) (d : Bytes) (offset length : Nat) (h : offset + length ≤ 48)
    (hd : length ≤ d.length) :
    ∃ A', overwriteBytes A d offset length = some A' ∧
      bytesOfLanes A' = Bytes.setAt (bytesOfLanes A) offset (d.take length) := by
  rw [overwriteBytes]
  by_cases h48 : length = 48
  · subst h48
    obtain rfl : offset = 0 := by omega
    obtain ⟨A1, e1, e2⟩ := overwriteAll_loop d 12 0 A (by omega) (by omega)
    refine ⟨A1, by rw [if_pos rfl]; exact e1, ?_⟩
    rw [e2, Nat.zero_mul, slice_take]
  · rw [if_neg h48, SnP.readBuf_some hd]
    simp only [Option.bind_eq_bind, Option.bind_some]
    rw [if_pos h]
    exact ⟨_, rfl, memSet_eq _ _ _⟩

theorem addByte_eq (A : Lanes) (b : Byte) (offset : Nat) (h : offset < 48) :
    ∃ A', addByte A b offset = some A' ∧ bytesOfLanes A' = Bytes.xorAt (bytesOfLanes A) offset [b] := by
  rw [addByte, if_pos h]
  exact ⟨_, rfl, bytesOfLanes_lanesOfBytes _ (by simp [length_bytesOfLanes])⟩

theorem overwriteWithZeroes_eq (A : Lanes) (n : Nat) (h : n ≤ 48) :
    ∃ A', overwriteWithZeroes A n = some A' ∧
      bytesOfLanes A' = Bytes.setAt (bytesOfLanes A) 0 (List.replicate n 0) := by
  rw [overwriteWithZeroes, if_pos h]
  exact ⟨_, rfl, memSet_eq _ _ _⟩

theorem shiftOut_eq (d : Bytes) : ∀ (w : Lane) (o : Nat), o + d.length ≤ 4 →
    shiftOut (w >>> (o * 8)) d = Bytes.xor d (Bytes.slice (bytesOfWord w) o d.length) := by
  induction d with
  | nil => intro w o _; simp [shiftOut, Bytes.xor]
  | cons b d ih =>
    intro w o h
    simp only [List.length_cons] at h
    have e : (w >>> (o * 8)) >>> 8 = w >>> ((o + 1) * 8) := by
      rw [← BitVec.shiftRight_add, show o * 8 + 8 = (o + 1) * 8 by omega]
    rw [shiftOut, e, ih w (o + 1) (by omega)]
    have hb : ∀ v : Lane, v.setWidth 8 = byteOf v 0 := by
      intro v
      apply byte_ext; intro t ht
      rw [getLsbD_byteOf _ _ _ ht]
      simp [ht]
    rw [hb, byteOf_shiftRight, Nat.add_zero]
    have hs : Bytes.slice (bytesOfWord w) o (d.length + 1)
        = byteOf w o :: Bytes.slice (bytesOfWord w) (o + 1) d.length := by
      apply List.ext_getElem?; intro k
      cases k with
      | zero => rw [Bytes.getElem?_slice, if_pos (by omega), Nat.add_zero, getElem?_bytesOfWord, if_pos (by omega)]; rfl
      | succ k =>
        rw [Bytes.getElem?_slice, List.getElem?_cons_succ, Bytes.getElem?_slice,
          show o + (k + 1) = o + 1 + k by omega]
        split
        · rw [if_pos (by omega)]
        · rw [if_neg (by omega)]
    rw [List.length_cons, hs]
    rfl

theorem slice_word (A : Lanes) (i : Nat) (h : i < 12) :
    bytesOfWord (A ⟨i, h⟩) = Bytes.slice (bytesOfLanes A) (i * 4) 4 := by
  have := slice_bytesOfLanes A ⟨i, h⟩ 0 4 (by omega)
  rw [Nat.add_zero] at this
  rw [this, slice_take, List.take_of_length_le (by rw [length_bytesOfWord])]

theorem bytesOfWord_xor (v w : Lane) : bytesOfWord (v ^^^ w) = Bytes.xor (bytesOfWord v) (bytesOfWord w) := by
  apply List.ext_getElem?; intro k
  rw [Bytes.xor, List.getElem?_zipWith, getElem?_bytesOfWord, getElem?_bytesOfWord, getElem?_bytesOfWord]
  split
  · rw [byteOf_xor]
  · rfl

theorem xor_comm (a b : Bytes) : Bytes.xor a b = Bytes.xor b a := by
  unfold Bytes.xor
  rw [List.zipWith_comm]
  congr 1
  funext x y
  exact BitVec.xor_comm _ _

theorem xorAll_loop (A : Lanes) (d : Bytes) : ∀ n i out, (i + n) ≤ 12 → (i + n) * 4 ≤ d.length →
    loopM (fun i out => do
      let w ← readLane (d.drop (i * 4))
      let a ← getLane A i
      some (out ++ bytesOfWord (a ^^^ w))) i n out =
      some (out ++ Bytes.xor (Bytes.slice d (i * 4) (n * 4)) (Bytes.slice (bytesOfLanes A) (i * 4) (n * 4))) := by
  intro n
  induction n with
  | zero => intro i out _ _; simp [loopM, Bytes.slice, Bytes.xor]
  | succ n ih =>
    intro i out h1 h2
    have := ih (i + 1) (out ++ bytesOfWord (A ⟨i, by omega⟩ ^^^ wordOfBytes (d.drop (i * 4)))) (by omega) (by omega)
    rw [loopM, readLane_some (by simp; omega), getLane_some (by omega)]
    simp only [Option.bind_eq_bind, Option.bind_some] at this ⊢
    rw [this, List.append_assoc]
    congr 2
    rw [bytesOfWord_xor, xor_comm, take4 (by simp; omega), slice_word,
      show (d.drop (i * 4)).take 4 = Bytes.slice d (i * 4) 4 from rfl, show (n + 1) * 4 = 4 + n * 4 by omega,
      show (i + 1) * 4 = i * 4 + 4 by omega, ← Relaned.slice_append, ← Relaned.slice_append (bytesOfLanes A)]
    rw [Relaned.xor_append _ _ _ _ ?_]
    rw [Bytes.length_slice_of_le (by omega), Bytes.length_slice_of_le (by rw [length_bytesOfLanes]; omega)]

theorem xorWords_eq (A : Lanes) : ∀ fuel lane cur sizeLeft, sizeLeft < fuel → lane * 4 + sizeLeft ≤ 48 →
    sizeLeft ≤ cur.length →
    xorWords A fuel lane cur sizeLeft =
      some (Bytes.xor (cur.take (sizeLeft / 4 * 4)) (Bytes.slice (bytesOfLanes A) (lane * 4) (sizeLeft / 4 * 4)),
        lane + sizeLeft / 4, cur.drop (sizeLeft / 4 * 4), sizeLeft % 4) := by
  intro fuel
  induction fuel with
  | zero => intro _ _ _ h; omega
  | succ fuel ih =>
    intro lane cur sizeLeft hf h1 h2
    rw [xorWords]
    split
    · rename_i h
      rw [readLane_some (by omega), getLane_some (by omega),
        ih (lane + 1) (cur.drop 4) (sizeLeft - 4) (by omega) (by omega) (by simp; omega)]
      simp only [Option.bind_eq_bind, Option.bind_some]
      rw [List.drop_drop, show lane + 1 + (sizeLeft - 4) / 4 = lane + sizeLeft / 4 by omega,
          show 4 + (sizeLeft - 4) / 4 * 4 = sizeLeft / 4 * 4 by omega,
          show (sizeLeft - 4) % 4 = sizeLeft % 4 by omega, bytesOfWord_xor, take4 (by omega), slice_word]
      congr 2
      rw [show sizeLeft / 4 * 4 = 4 + (sizeLeft - 4) / 4 * 4 by omega, List.take_add,
        show (lane + 1) * 4 = lane * 4 + 4 by omega, ← Relaned.slice_append (bytesOfLanes A),
        Relaned.xor_append _ _ _ _ ?_]
      rw [Bytes.length_slice_of_le (by rw [length_bytesOfLanes]; omega)]
      simp; omega
    · rename_i h
      rw [show sizeLeft / 4 = 0 by omega, show sizeLeft % 4 = sizeLeft by omega]; simp [Bytes.xor]

theorem xorFirst_eq (A : Lanes) (d : Bytes) (offset length : Nat) (h : offset + length ≤ 48)
    (hd : length ≤ d.length) :
    ∃ k L, k ≤ length ∧ (length = k ∨ L * 4 = offset + k) ∧
      xorFirst A d offset length =
        some (Bytes.xor (d.take k) (Bytes.slice (bytesOfLanes A) offset k), L, d.drop k, length - k) := by
  simp only [xorFirst, Option.bind_eq_bind]
  by_cases hc : length > 0 ∧ offset % 4 ≠ 0
  · rw [if_pos hc]
    generalize hk : (if 4 - offset % 4 > length then length else 4 - offset % 4) = k
    have hk1 : k ≤ length := by split at hk <;> omega
    have hk2 : offset % 4 + k ≤ 4 := by split at hk <;> omega
    have hk3 : length = k ∨ (offset / 4 + 1) * 4 = offset + k := by split at hk <;> omega
    have hk4 : 0 < k := by split at hk <;> omega
    have hl : (d.take k).length = k := by simp; omega
    refine ⟨k, _, hk1, hk3, ?_⟩
    rw [getLane_some (by omega), SnP.readBuf_some (by omega)]
    simp only [Option.bind_some]
    rw [shiftOut_eq _ _ _ (by omega), hl, ← slice_bytesOfLanes A ⟨offset / 4, by omega⟩ _ _ hk2]
    simp only []
    rw [show offset / 4 * 4 + offset % 4 = offset by omega]
  · rw [if_neg hc]
    exact ⟨0, offset / 4, by omega, by omega, by simp [Bytes.xor]⟩

theorem extractAndAddBytes_eq (A : Lanes) (d : Bytes) (offset length : Nat) (h : offset + length ≤ 48)
    (hd : length ≤ d.length) :
    extractAndAddBytes A d offset length =
      some (Bytes.xor (d.take length) (Bytes.slice (bytesOfLanes A) offset length)) := by
  rw [extractAndAddBytes]
  by_cases h48 : length = 48
  · subst h48
    obtain rfl : offset = 0 := by omega
    rw [if_pos rfl, xorAll, xorAll_loop A d 12 0 [] (by omega) (by omega)]
    simp [slice_take]
  · rw [if_neg h48]
    obtain ⟨k, L, hk, hL, e1⟩ := xorFirst_eq A d offset length h hd
    simp only [Option.bind_eq_bind]
    rw [e1]
    simp only [Option.bind_some]
    by_cases hz : length = k
    · subst hz
      have e3 : xorWords A (length + 1) L (d.drop length) (length - length) = some ([], L, d.drop length, 0) := by
        rw [xorWords, Nat.sub_self, if_neg (by omega)]
      rw [e3]
      simp
    · have hL : L * 4 = offset + k := by omega
      rw [xorWords_eq A (length + 1) L (d.drop k) (length - k) (by omega) (by omega) (by simp; omega)]
      simp only [Option.bind_some, List.drop_drop]
      have hA := length_bytesOfLanes A
      have hl : (d.take k).length = k := by simp; omega
      have e2 : Bytes.xor (d.take k) (Bytes.slice (bytesOfLanes A) offset k) ++
          Bytes.xor ((d.drop k).take ((length - k) / 4 * 4))
            (Bytes.slice (bytesOfLanes A) (L * 4) ((length - k) / 4 * 4)) =
          Bytes.xor (d.take (k + (length - k) / 4 * 4))
            (Bytes.slice (bytesOfLanes A) offset (k + (length - k) / 4 * 4)) := by
        rw [hL, List.take_add, ← Relaned.slice_append (bytesOfLanes A), Relaned.xor_append _ _ _ _ ?_]
        rw [hl, Bytes.length_slice_of_le (by omega)]
      rw [e2]
      generalize hm : k + (length - k) / 4 * 4 = m at *
      generalize hr : (length - k) % 4 = r at *
      have hmr : m + r = length := by omega
      split
      · rename_i hpos
        have hl2 : ((d.drop m).take r).length = r := by simp; omega
        have hlm : (d.take m).length = m := by simp; omega
        have := shiftOut_eq ((d.drop m).take r) (A ⟨L + (length - k) / 4, by omega⟩) 0 (by omega)
        rw [Nat.zero_mul, BitVec.ushiftRight_zero] at this
        rw [getLane_some (by omega), SnP.readBuf_some (by simp; omega)]
        simp only [Option.bind_some, Option.some.injEq]
        rw [this, ← slice_bytesOfLanes A _ _ _ (by omega), hl2]
        simp only [Nat.add_zero]
        rw [show (L + (length - k) / 4) * 4 = offset + m by omega, ← hmr, List.take_add,
          ← Relaned.slice_append (bytesOfLanes A), Relaned.xor_append _ _ _ _ ?_]
        rw [hlm, Bytes.length_slice_of_le (by omega)]
      · rename_i hpos
        rw [show m = length by omega]

end Opt

end Xoodoo
