import Verif.Model.KeccakP1600Inplace32
import Verif.Proofs.KeccakPRef32

/-! # The in-place 32-bit implementation: bit interleaving and byte access -/

namespace KeccakP1600.Inplace32

/-! ## bit interleaving -/

/-- where bit `j` comes from in a swap by `s` of the bits selected by `m` -/
def source (s : Nat) (m : Word) (j : Fin 32) : Fin 32 :=
  if m.getLsbD j.val then Fin.ofNat 32 (j.val + s) else if s ≤ j.val ∧ m.getLsbD (j.val - s) then Fin.ofNat 32 (j.val - s)
  else j

theorem getLsbD_swap (s : Nat) (m x : Word)
    (h1 : ∀ j : Fin 32, m.getLsbD j.val → j.val + s < 32 ∧ (s ≤ j.val → m.getLsbD (j.val - s) = false)) (j : Fin 32) :
    (swap s m x).getLsbD j.val = x.getLsbD (source s m j).val := by
  have hj := j.isLt
  simp only [swap, BitVec.getLsbD_xor, BitVec.getLsbD_shiftLeft, BitVec.getLsbD_and, BitVec.getLsbD_ushiftRight, hj,
    decide_true, Bool.true_and, source]
  by_cases hm : m.getLsbD j.val = true
  · obtain ⟨hlt, hm'⟩ := h1 j hm
    rw [if_pos hm, hm, show (Fin.ofNat 32 (j.val + s)).val = j.val + s from Nat.mod_eq_of_lt hlt]
    by_cases hs : s ≤ j.val
    · rw [hm' hs, Nat.add_comm s]
      cases x.getLsbD j.val <;> cases x.getLsbD (j.val + s) <;> simp
    · have : j.val < s := by omega
      rw [Nat.add_comm s]
      cases x.getLsbD j.val <;> cases x.getLsbD (j.val + s) <;> simp [this]
  · rw [if_neg hm]
    have hm' : m.getLsbD j.val = false := by simpa using hm
    rw [hm']
    by_cases hs : s ≤ j.val
    · have e : ¬ j.val < s := by omega
      by_cases hms : m.getLsbD (j.val - s) = true
      · rw [if_pos ⟨hs, hms⟩, hms, show (Fin.ofNat 32 (j.val - s)).val = j.val - s from Nat.mod_eq_of_lt (by omega),
          show s + (j.val - s) = j.val by omega]
        cases x.getLsbD j.val <;> cases x.getLsbD (j.val - s) <;> simp [e]
      · rw [if_neg (by simp [hms])]
        have : m.getLsbD (j.val - s) = false := by simpa using hms
        simp [this]
    · rw [if_neg (by simp [hs])]
      have : j.val < s := by omega
      simp [this]

theorem mask1 : ∀ j : Fin 32, (0x22222222 : Word).getLsbD j.val →
    j.val + 1 < 32 ∧ (1 ≤ j.val → (0x22222222 : Word).getLsbD (j.val - 1) = false) := by decide +kernel

theorem mask2 : ∀ j : Fin 32, (0x0C0C0C0C : Word).getLsbD j.val →
    j.val + 2 < 32 ∧ (2 ≤ j.val → (0x0C0C0C0C : Word).getLsbD (j.val - 2) = false) := by decide +kernel

theorem mask4 : ∀ j : Fin 32, (0x00F000F0 : Word).getLsbD j.val →
    j.val + 4 < 32 ∧ (4 ≤ j.val → (0x00F000F0 : Word).getLsbD (j.val - 4) = false) := by decide +kernel

theorem mask8 : ∀ j : Fin 32, (0x0000FF00 : Word).getLsbD j.val →
    j.val + 8 < 32 ∧ (8 ≤ j.val → (0x0000FF00 : Word).getLsbD (j.val - 8) = false) := by decide +kernel

theorem prepareTo_source : ∀ j : Fin 32, (source 1 0x22222222 (source 2 0x0C0C0C0C (source 4 0x00F000F0
    (source 8 0x0000FF00 j)))).val = if j.val < 16 then 2 * j.val else 2 * (j.val - 16) + 1 := by decide +kernel

theorem prepareFrom_source : ∀ j : Fin 32, (source 8 0x0000FF00 (source 4 0x00F000F0 (source 2 0x0C0C0C0C
    (source 1 0x22222222 j)))).val = if j.val % 2 = 0 then j.val / 2 else j.val / 2 + 16 := by decide +kernel

/-- the even bits first, then the odd bits -/
theorem getLsbD_prepareTo (x : Word) (j : Nat) (hj : j < 32) :
    (prepareTo x).getLsbD j = x.getLsbD (if j < 16 then 2 * j else 2 * (j - 16) + 1) := by
  have := prepareTo_source ⟨j, hj⟩
  rw [← this, prepareTo, getLsbD_swap _ _ _ mask8 ⟨j, hj⟩, getLsbD_swap _ _ _ mask4, getLsbD_swap _ _ _ mask2,
    getLsbD_swap _ _ _ mask1]

theorem getLsbD_prepareFrom (x : Word) (j : Nat) (hj : j < 32) :
    (prepareFrom x).getLsbD j = x.getLsbD (if j % 2 = 0 then j / 2 else j / 2 + 16) := by
  have := prepareFrom_source ⟨j, hj⟩
  rw [← this, prepareFrom, getLsbD_swap _ _ _ mask1 ⟨j, hj⟩, getLsbD_swap _ _ _ mask2, getLsbD_swap _ _ _ mask4,
    getLsbD_swap _ _ _ mask8]

theorem mask_low : ∀ j : Fin 32, (0x0000FFFF : Word).getLsbD j.val = decide (j.val < 16) := by decide +kernel
theorem mask_high : ∀ j : Fin 32, (0xFFFF0000 : Word).getLsbD j.val = decide (16 ≤ j.val) := by decide +kernel

/-- the lower halves of two words -/
theorem getLsbD_lows (a b : Word) (j : Nat) (hj : j < 32) :
    ((a &&& (0x0000FFFF : Word)) ||| (b <<< 16) : Word).getLsbD j = if j < 16 then a.getLsbD j else b.getLsbD (j - 16) := by
  have := mask_low ⟨j, hj⟩
  simp only at this
  rw [BitVec.getLsbD_or, BitVec.getLsbD_and, BitVec.getLsbD_shiftLeft, this]
  split <;> rename_i h <;> simp [h, hj]

/-- the upper halves of two words -/
theorem getLsbD_highs (a b : Word) (j : Nat) (hj : j < 32) :
    ((a >>> 16) ||| (b &&& (0xFFFF0000 : Word)) : Word).getLsbD j = if j < 16 then a.getLsbD (j + 16) else b.getLsbD j := by
  have := mask_high ⟨j, hj⟩
  simp only at this
  rw [BitVec.getLsbD_or, BitVec.getLsbD_and, BitVec.getLsbD_ushiftRight, this]
  split
  · rename_i h
    simp [show ¬ 16 ≤ j by omega, Nat.add_comm]
  · rename_i h
    simp [show 16 ≤ j by omega, BitVec.getLsbD_of_ge a (16 + j) (by omega)]

theorem toBitInterleaving_spec (low high : Word) :
    il (toBitInterleaving low high).1 (toBitInterleaving low high).2 = (high ++ low : Lane) := by
  apply BitVec.eq_of_getLsbD_eq; intro i hi
  have hi2 : i / 2 < 32 := by omega
  rw [getLsbD_il _ _ _ hi, getLsbD_append64]
  simp only [toBitInterleaving, getLsbD_lows _ _ _ hi2, getLsbD_highs _ _ _ hi2]
  by_cases h : i % 2 = 0 <;> by_cases h' : i < 32
  · rw [if_pos h, if_pos h', if_pos (by omega), getLsbD_prepareTo _ _ hi2, if_pos (by omega)]
    congr 1; omega
  · rw [if_pos h, if_neg h', if_neg (by omega), getLsbD_prepareTo _ _ (by omega), if_pos (by omega)]
    congr 1; omega
  · rw [if_neg h, if_pos h', if_pos (by omega), getLsbD_prepareTo _ _ (by omega), if_neg (by omega)]
    congr 1; omega
  · rw [if_neg h, if_neg h', if_neg (by omega), getLsbD_prepareTo _ _ hi2, if_neg (by omega)]
    congr 1; omega

theorem fromBitInterleaving_spec (even odd : Word) :
    ((fromBitInterleaving even odd).2 ++ (fromBitInterleaving even odd).1 : Lane) = il even odd := by
  apply BitVec.eq_of_getLsbD_eq; intro i hi
  rw [getLsbD_append64, getLsbD_il _ _ _ hi]
  simp only [fromBitInterleaving]
  by_cases h' : i < 32
  · rw [if_pos h', getLsbD_prepareFrom _ _ h']
    by_cases h : i % 2 = 0
    · rw [if_pos h, if_pos h, getLsbD_lows _ _ _ (by omega), if_pos (by omega)]
    · rw [if_neg h, if_neg h, getLsbD_lows _ _ _ (by omega), if_neg (by omega)]
      congr 1
  · rw [if_neg h', getLsbD_prepareFrom _ _ (by omega)]
    by_cases h : i % 2 = 0
    · rw [if_pos (by omega), if_pos h, getLsbD_highs _ _ _ (by omega), if_pos (by omega)]
      congr 1; omega
    · rw [if_neg (by omega), if_neg h, getLsbD_highs _ _ _ (by omega), if_neg (by omega)]
      congr 1; omega

/-! ## byte access -/

theorem onLane_eq (f : Word → Word → Word) (A : Words) (p : Nat) (hp : p < 25) (w : Word × Word) :
    onLane f A p w = some (put (put A ⟨p * 2 + 0, by omega⟩ (f (A ⟨p * 2 + 0, by omega⟩) w.1)) ⟨p * 2 + 1, by omega⟩
      (f (A ⟨p * 2 + 1, by omega⟩) w.2)) := by
  rw [onLane]
  simp only [Option.bind_eq_bind]
  rw [getWord_some (show p * 2 + 0 < 50 by omega), Option.bind_some, setWord_some (show p * 2 + 0 < 50 by omega),
    Option.bind_some, getWord_some (show p * 2 + 1 < 50 by omega), Option.bind_some,
    setWord_some (show p * 2 + 1 < 50 by omega)]
  simp [put]

theorem words_spec (b : Bytes) : il (toBitInterleaving (words b).1 (words b).2).1
    (toBitInterleaving (words b).1 (words b).2).2 = wordOfBytes b := by
  rw [toBitInterleaving_spec]; exact append_word b

theorem lanes_onLane_xor (A : Words) (p : Nat) (hp : p < 25) (low high : Word) :
    ∃ A', onLane (· ^^^ ·) A p (toBitInterleaving low high) = some A' ∧
      lanes A' = put (lanes A) ⟨p, hp⟩ (lanes A ⟨p, hp⟩ ^^^ (high ++ low : Lane)) := by
  refine ⟨_, onLane_eq _ A p hp _, ?_⟩
  rw [lanes_put _ _ hp, il_xor, toBitInterleaving_spec]
  rfl

theorem lanes_onLane_and (A : Words) (p : Nat) (hp : p < 25) (low high : Word) :
    ∃ A', onLane (· &&& ·) A p (toBitInterleaving low high) = some A' ∧
      lanes A' = put (lanes A) ⟨p, hp⟩ (lanes A ⟨p, hp⟩ &&& (high ++ low : Lane)) := by
  refine ⟨_, onLane_eq _ A p hp _, ?_⟩
  rw [lanes_put _ _ hp, il_and, toBitInterleaving_spec]
  rfl

theorem lanes_onLane_set (A : Words) (p : Nat) (hp : p < 25) (low high : Word) :
    ∃ A', onLane (fun _ v => v) A p (toBitInterleaving low high) = some A' ∧
      lanes A' = put (lanes A) ⟨p, hp⟩ (high ++ low : Lane) := by
  refine ⟨_, onLane_eq _ A p hp _, ?_⟩
  rw [lanes_put _ _ hp, toBitInterleaving_spec]

/-- masking bytes of a lane -/
theorem and_mask (L : Lane) (o len : Nat) (h : o + len ≤ 8) :
    L &&& wordOfBytes (List.replicate o 0xFF ++ List.replicate len 0x00 ++ List.replicate (8 - o - len) 0xFF) =
      wordOfBytes (Bytes.setAt (bytesOfWord L) o (List.replicate len 0)) := by
  apply BitVec.eq_of_getLsbD_eq; intro i hi
  rw [BitVec.getLsbD_and, getLsbD_wordOfBytes _ ⟨i, hi⟩, getLsbD_wordOfBytes _ ⟨i, hi⟩]
  have hff : ∀ t : Fin 8, (0xFF : Byte).getLsbD t.val = true := by decide +kernel
  have h8 := hff ⟨i % 8, by omega⟩
  simp only at h8
  have hg : (bytesOfWord L)[i / 8]? = some (byteOf L (i / 8)) := by
    rw [getElem?_bytesOfWord, if_pos (by omega)]
  simp only [List.getD_eq_getElem?_getD, Bytes.getElem?_setAt, hg, Option.map_some, Option.getD_some,
    List.length_replicate, List.getElem?_append, List.getElem?_replicate, List.length_append]
  have hb := getLsbD_byteOf L (i / 8) (i % 8) (by omega)
  rw [show 8 * (i / 8) + i % 8 = i by omega] at hb
  by_cases h1 : i / 8 < o
  · rw [if_pos (by omega), if_pos h1, if_pos h1, if_neg (by omega), Option.getD_some, h8, hb, Bool.and_true]
  · by_cases h2 : i / 8 < o + len
    · rw [if_pos h2, if_neg h1, if_pos (by omega), if_pos (by omega)]
      simp
    · rw [if_neg h2, if_pos (by omega), if_neg (by omega), Option.getD_some, h8, hb, Bool.and_true]

theorem setBytesInLaneToZero_eq (A : Words) (p o len : Nat) (hp : p < 25) (h : o + len ≤ 8) :
    ∃ A', setBytesInLaneToZero A p o len = some A' ∧
      view32 A' = Bytes.setAt (view32 A) (p * 8 + o) (List.replicate len 0) := by
  rw [setBytesInLaneToZero, if_pos h]
  obtain ⟨A', e1, e2⟩ := lanes_onLane_and A p hp
    (words (List.replicate o 0xFF ++ List.replicate len 0x00 ++ List.replicate (8 - o - len) 0xFF)).1
    (words (List.replicate o 0xFF ++ List.replicate len 0x00 ++ List.replicate (8 - o - len) 0xFF)).2
  refine ⟨A', e1, view32_set hp (by simpa using h) ?_⟩
  rw [e2, ← and_mask _ _ _ h, ← append_word]
  rfl

theorem addBytesInLane_eq (A : Words) (p : Nat) (d : Bytes) (o len : Nat) (h0 : 0 < len) (h1 : o + len ≤ 8)
    (h2 : p * 8 + o + len ≤ 200) (hd : len ≤ d.length) :
    ∃ A', addBytesInLane A p d o len = some A' ∧ view32 A' = Bytes.xorAt (view32 A) (p * 8 + o) (d.take len) := by
  have hp : p < 25 := by omega
  rw [addBytesInLane, SnP.readBuf_some hd]
  simp only [Option.bind_eq_bind, Option.bind_some]
  rw [if_pos h1]
  obtain ⟨A', e1, e2⟩ := lanes_onLane_xor A p hp (words (Bytes.setAt (List.replicate 8 0) o (d.take len))).1
    (words (Bytes.setAt (List.replicate 8 0) o (d.take len))).2
  refine ⟨A', e1, view32_xor hp (by simp; omega) ?_⟩
  rw [e2, ← append_word]
  rfl

theorem xorAt_setAt_zero (s : Bytes) (o n : Nat) (d : Bytes) (h : d.length = n) :
    Bytes.xorAt (Bytes.setAt s o (List.replicate n 0)) o d = Bytes.setAt s o d := by
  apply List.ext_getElem?; intro j
  rw [Bytes.getElem?_xorAt, Bytes.getElem?_setAt, Bytes.getElem?_setAt, Option.map_map]
  congr 1
  funext x
  simp only [Function.comp, List.length_replicate, h]
  by_cases h1 : o ≤ j ∧ j < o + n
  · rw [if_pos h1, if_pos h1, if_pos h1.1]
    have e : (List.replicate n (0 : Byte)).getD (j - o) 0 = 0 := by
      rw [List.getD_eq_getElem?_getD, List.getElem?_replicate, if_pos (by omega)]; rfl
    rw [e]
    exact BitVec.zero_xor
  · rw [if_neg h1, if_neg h1]
    by_cases h2 : o ≤ j
    · rw [if_pos h2, List.getD_eq_getElem?_getD, List.getElem?_eq_none (by omega)]
      exact BitVec.xor_zero
    · rw [if_neg h2]
      exact BitVec.xor_zero

theorem overwriteBytesInLane_eq (A : Words) (p : Nat) (d : Bytes) (o len : Nat) (h0 : 0 < len) (h1 : o + len ≤ 8)
    (h2 : p * 8 + o + len ≤ 200) (hd : len ≤ d.length) :
    ∃ A', overwriteBytesInLane A p d o len = some A' ∧
      view32 A' = Bytes.setAt (view32 A) (p * 8 + o) (d.take len) := by
  obtain ⟨A1, e1, h1'⟩ := setBytesInLaneToZero_eq A p o len (by omega) h1
  obtain ⟨A2, e2, h2'⟩ := addBytesInLane_eq A1 p d o len h0 h1 h2 hd
  refine ⟨A2, ?_, ?_⟩
  · rw [overwriteBytesInLane, e1]; exact e2
  · rw [h2', h1', xorAt_setAt_zero _ _ _ _ (by simp; omega)]

/-- a loop over lanes, each iteration writing 8 bytes of the data -/
theorem lanesLoop_eq (W : Bytes → Nat → Bytes → Bytes) (W_nil : ∀ s o, W s o [] = s)
    (W_append : ∀ s o d e, W (W s o d) (o + d.length) e = W s o (d ++ e)) (body : Nat → Words → Option Words)
    (data : Bytes) (hbody : ∀ i A, i < 25 → i * 8 + 8 ≤ data.length →
      ∃ A', body i A = some A' ∧ view32 A' = W (view32 A) (i * 8) (Bytes.slice data (i * 8) 8)) :
    ∀ n i A, (i + n) * 8 ≤ 200 → (i + n) * 8 ≤ data.length → ∃ A', loopM body i n A = some A' ∧
      view32 A' = W (view32 A) (i * 8) (Bytes.slice data (i * 8) (n * 8)) := by
  intro n
  induction n with
  | zero =>
    intro i A _ _
    refine ⟨A, rfl, ?_⟩
    rw [show Bytes.slice data (i * 8) (0 * 8) = [] by simp [Bytes.slice], W_nil]
  | succ n ih =>
    intro i A h1 h2
    obtain ⟨A1, e1, v1⟩ := hbody i A (by omega) (by omega)
    obtain ⟨A2, e2, v2⟩ := ih (i + 1) A1 (by omega) (by omega)
    refine ⟨A2, ?_, ?_⟩
    · rw [loopM, e1]; exact e2
    · have hl : (Bytes.slice data (i * 8) 8).length = 8 := Bytes.length_slice_of_le (by omega)
      rw [v2, v1, show (i + 1) * 8 = i * 8 + (Bytes.slice data (i * 8) 8).length by omega, W_append, hl,
        Relaned.slice_append, show 8 + n * 8 = (n + 1) * 8 by omega]

theorem setAt_full (b : Bytes) (h : b.length = 8) (s : Bytes) (hs : s.length = 8) : Bytes.setAt s 0 b = b := by
  apply List.ext_getElem?; intro j
  rw [Bytes.getElem?_setAt]
  by_cases hj : j < 8
  · rw [List.getElem?_eq_getElem (by omega), List.getElem?_eq_getElem (by omega)]
    simp only [Option.map_some, Option.some.injEq]
    rw [if_pos (by omega), List.getD_eq_getElem?_getD, Nat.sub_zero, List.getElem?_eq_getElem (by omega)]; rfl
  · rw [List.getElem?_eq_none (by omega), List.getElem?_eq_none (by omega)]; rfl

theorem addLanes_eq (A : Words) (d : Bytes) (n : Nat) (h : n * 8 ≤ 200) (hd : n * 8 ≤ d.length) :
    ∃ A', addLanes A d n = some A' ∧ view32 A' = Bytes.xorAt (view32 A) 0 (d.take (n * 8)) := by
  obtain ⟨A', e, v⟩ := lanesLoop_eq Bytes.xorAt Bytes.xorAt_nil Bytes.xorAt_append (fun i A => do
    let b ← SnP.readBuf (d.drop (i * 8)) 8
    let w := words b
    onLane (· ^^^ ·) A i (toBitInterleaving w.1 w.2)) d (fun i A hi hdi => by
    have hl : (Bytes.slice d (i * 8) 8).length = 8 := Bytes.length_slice_of_le (by omega)
    obtain ⟨A', e1, e2⟩ := lanes_onLane_xor A i hi (words (Bytes.slice d (i * 8) 8)).1
      (words (Bytes.slice d (i * 8) 8)).2
    refine ⟨A', ?_, view32_xor hi (o := 0) (by omega) ?_⟩
    · rw [SnP.readBuf_some (by simp; omega)]; exact e1
    · rw [e2, setAt_full _ hl _ (by simp), ← append_word]; rfl) n 0 A (by omega) (by omega)
  exact ⟨A', e, by rw [v]; simp [Bytes.slice]⟩

theorem overwriteLanes_eq (A : Words) (d : Bytes) (n : Nat) (h : n * 8 ≤ 200) (hd : n * 8 ≤ d.length) :
    ∃ A', overwriteLanes A d n = some A' ∧ view32 A' = Bytes.setAt (view32 A) 0 (d.take (n * 8)) := by
  obtain ⟨A', e, v⟩ := lanesLoop_eq Bytes.setAt Bytes.setAt_nil Bytes.setAt_append (fun i A => do
    let b ← SnP.readBuf (d.drop (i * 8)) 8
    let w := words b
    onLane (fun _ v => v) A i (toBitInterleaving w.1 w.2)) d (fun i A hi hdi => by
    have hl : (Bytes.slice d (i * 8) 8).length = 8 := Bytes.length_slice_of_le (by omega)
    obtain ⟨A', e1, e2⟩ := lanes_onLane_set A i hi (words (Bytes.slice d (i * 8) 8)).1
      (words (Bytes.slice d (i * 8) 8)).2
    refine ⟨A', ?_, view32_set hi (o := 0) (by omega) ?_⟩
    · rw [SnP.readBuf_some (by simp; omega)]; exact e1
    · rw [e2, setAt_full _ hl _ (length_bytesOfWord _), ← append_word]; rfl) n 0 A (by omega) (by omega)
  exact ⟨A', e, by rw [v]; simp [Bytes.slice]⟩

theorem overwriteWithZeroes_eq (A : Words) (n : Nat) (h : n ≤ 200) :
    ∃ A', overwriteWithZeroes A n = some A' ∧ view32 A' = Bytes.setAt (view32 A) 0 (List.replicate n 0) := by
  obtain ⟨A1, e1, v1⟩ := lanesLoop_eq Bytes.setAt Bytes.setAt_nil Bytes.setAt_append (fun i A => do
    let A ← setWord A (i * 2 + 0) 0
    setWord A (i * 2 + 1) 0) (List.replicate n 0) (fun i A hi hdi => by
    refine ⟨_, by rw [setWord_some (show i * 2 + 0 < 50 by omega), Option.bind_eq_bind, Option.bind_some,
      setWord_some (show i * 2 + 1 < 50 by omega)], ?_⟩
    rw [Ref32.zeroLane A i hi, Bytes.slice, List.drop_replicate, List.take_replicate]
    rw [List.length_replicate] at hdi
    rw [Nat.min_eq_left (by omega)]) (n / 8) 0 A (by omega) (by simp; omega)
  rw [overwriteWithZeroes]
  simp only [Option.bind_eq_bind] at e1 ⊢
  rw [e1, Option.bind_some]
  have hs : Bytes.slice (List.replicate n (0 : Byte)) (0 * 8) (n / 8 * 8) = List.replicate (n / 8 * 8) 0 := by
    rw [Bytes.slice, List.drop_replicate, List.take_replicate, Nat.min_eq_left (by omega)]
  rw [hs] at v1
  by_cases hm : n % 8 ≠ 0
  · obtain ⟨A2, e2, v2⟩ := setBytesInLaneToZero_eq A1 (n / 8) 0 (n % 8) (by omega) (by omega)
    refine ⟨A2, by rw [if_pos hm, e2], ?_⟩
    rw [v2, v1, show n / 8 * 8 + 0 = 0 * 8 + (List.replicate (n / 8 * 8) (0 : Byte)).length by simp,
      Bytes.setAt_append, List.replicate_append_replicate, Nat.div_add_mod']
  · refine ⟨A1, by rw [if_neg hm], ?_⟩
    rw [v1, show n / 8 * 8 = n by omega]

theorem laneBytes_eq (A : Words) (p : Nat) (hp : p < 25) : laneBytes A p = some (bytesOfWord (lanes A ⟨p, hp⟩)) := by
  rw [laneBytes, getWord_some (show p * 2 < 50 by omega), getWord_some (show p * 2 + 1 < 50 by omega)]
  simp only [Option.bind_eq_bind, Option.bind_some, bytes_append, fromBitInterleaving_spec]
  rfl

theorem readBuf_slice {b : Bytes} {o len : Nat} (h : o + len ≤ b.length) :
    SnP.readBuf (b.drop o) len = some (Bytes.slice b o len) := by
  rw [SnP.readBuf_some (by simp; omega)]; rfl

theorem extractBytesInLane_eq (A : Words) (p o len : Nat) (h0 : 0 < len) (h1 : o + len ≤ 8)
    (h2 : p * 8 + o + len ≤ 200) :
    extractBytesInLane A p o len = some (Bytes.slice (view32 A) (p * 8 + o) len) := by
  have hp : p < 25 := by omega
  rw [extractBytesInLane, laneBytes_eq A p hp]
  simp only [Option.bind_eq_bind, Option.bind_some]
  rw [view32, slice_bytesOfLanes _ ⟨p, hp⟩ _ _ h1, readBuf_slice (by rw [length_bytesOfWord]; exact h1)]

theorem extractAndAddBytesInLane_eq (A : Words) (p : Nat) (d : Bytes) (o len : Nat) (h0 : 0 < len)
    (h1 : o + len ≤ 8) (h2 : p * 8 + o + len ≤ 200) (hd : len ≤ d.length) :
    extractAndAddBytesInLane A p d o len = some (Bytes.xor (d.take len) (Bytes.slice (view32 A) (p * 8 + o) len)) := by
  have hp : p < 25 := by omega
  rw [extractAndAddBytesInLane, laneBytes_eq A p hp]
  simp only [Option.bind_eq_bind, Option.bind_some]
  rw [view32, slice_bytesOfLanes _ ⟨p, hp⟩ _ _ h1, readBuf_slice (by rw [length_bytesOfWord]; exact h1),
    SnP.readBuf_some hd]
  rfl

theorem slice_lane (A : Words) (p : Nat) (hp : p < 25) :
    Bytes.slice (view32 A) (p * 8) 8 = bytesOfWord (lanes A ⟨p, hp⟩) := by
  have := slice_bytesOfLanes (lanes A) ⟨p, hp⟩ 0 8 (by omega)
  simp only [Nat.add_zero] at this
  rw [view32, this, Bytes.slice, List.drop_zero, List.take_of_length_le (by rw [length_bytesOfWord])]

theorem extractLoop_eq (A : Words) : ∀ n i, (i + n) * 8 ≤ 200 →
    extractLoop A i n = some (Bytes.slice (view32 A) (i * 8) (n * 8)) := by
  intro n
  induction n with
  | zero => intro i _; simp [extractLoop, Bytes.slice]
  | succ n ih =>
    intro i h
    rw [extractLoop, laneBytes_eq A i (by omega), ih (i + 1) (by omega)]
    simp only [Option.bind_eq_bind, Option.bind_some]
    rw [← slice_lane A i (by omega), show (i + 1) * 8 = i * 8 + 8 by omega, Relaned.slice_append,
      show 8 + n * 8 = (n + 1) * 8 by omega]

theorem bytesOfWord_xor (v w : Lane) : bytesOfWord (v ^^^ w) = Bytes.xor (bytesOfWord v) (bytesOfWord w) := by
  apply List.ext_getElem?; intro j
  rw [getElem?_bytesOfWord, Bytes.xor, List.getElem?_zipWith, getElem?_bytesOfWord, getElem?_bytesOfWord]
  split
  · simp [byteOf_xor]
  · rfl

theorem append_xor (a b c d : Word) : ((a ^^^ b) ++ (c ^^^ d) : Lane) = (a ++ c : Lane) ^^^ (b ++ d : Lane) := by
  apply BitVec.eq_of_getLsbD_eq; intro i hi
  rw [BitVec.getLsbD_xor]
  simp only [getLsbD_append64]
  split <;> simp

theorem xor_append (a b c d : Bytes) (h : a.length = b.length) :
    Bytes.xor a b ++ Bytes.xor c d = Bytes.xor (a ++ c) (b ++ d) := by
  simp only [Bytes.xor]
  rw [List.zipWith_append h]

theorem extractAndAddLoop_eq (A : Words) (input : Bytes) : ∀ n i, (i + n) * 8 ≤ 200 → (i + n) * 8 ≤ input.length →
    extractAndAddLoop A input i n =
      some (Bytes.xor (Bytes.slice input (i * 8) (n * 8)) (Bytes.slice (view32 A) (i * 8) (n * 8))) := by
  intro n
  induction n with
  | zero => intro i _ _; simp [extractAndAddLoop, Bytes.slice, Bytes.xor]
  | succ n ih =>
    intro i h hin
    have hi : i < 25 := by omega
    have hl1 : (Bytes.slice input (i * 8) 8).length = 8 := Bytes.length_slice_of_le (by omega)
    have hl2 : (Bytes.slice (view32 A) (i * 8) 8).length = 8 :=
      Bytes.length_slice_of_le (by rw [length_view32]; omega)
    rw [extractAndAddLoop, getWord_some (show i * 2 < 50 by omega), getWord_some (show i * 2 + 1 < 50 by omega),
      ih (i + 1) (by omega) (by omega), readBuf_slice (by omega)]
    simp only [Option.bind_eq_bind, Option.bind_some]
    rw [bytes_append, append_xor, fromBitInterleaving_spec, bytesOfWord_xor,
      show ((words (Bytes.slice input (i * 8) 8)).2 ++ (words (Bytes.slice input (i * 8) 8)).1 : Lane) =
        wordOfBytes (Bytes.slice input (i * 8) 8) from append_word _, bytesOfWord_wordOfBytes _ hl1,
      show bytesOfWord (il (A ⟨i * 2, by omega⟩) (A ⟨i * 2 + 1, by omega⟩)) = Bytes.slice (view32 A) (i * 8) 8 from
        (slice_lane A i hi).symm, xor_append _ _ _ _ (by rw [hl1, hl2]), show (i + 1) * 8 = i * 8 + 8 by omega,
      Relaned.slice_append, Relaned.slice_append, show 8 + n * 8 = (n + 1) * 8 by omega]

theorem ops_sound : Relaned.OpsSound 8 200 view32 ops where
  add := ⟨addLanes_eq, addBytesInLane_eq⟩
  overwrite := ⟨overwriteLanes_eq, overwriteBytesInLane_eq⟩
  extractLanes := fun A n h => by
    refine (extractLoop_eq A n 0 (by omega)).trans ?_
    rw [Nat.zero_mul]
  extractIn := extractBytesInLane_eq
  extractAndAddLanes := fun A d n h hd => by
    refine (extractAndAddLoop_eq A d n 0 (by omega) (by omega)).trans ?_
    rw [Nat.zero_mul]; rfl
  extractAndAddIn := extractAndAddBytesInLane_eq

/-- the two words built by `KeccakP1600_AddByte` -/
theorem byte_words (b : Byte) (o : Nat) (ho : o < 8) :
    (if o < 4 then (b.setWidth 32 <<< (o * 8), 0) else (0, b.setWidth 32 <<< ((o - 4) * 8)) : Word × Word) =
      words (Bytes.setAt (List.replicate 8 0) o [b]) := by
  have h : o = 0 ∨ o = 1 ∨ o = 2 ∨ o = 3 ∨ o = 4 ∨ o = 5 ∨ o = 6 ∨ o = 7 := by omega
  rcases h with rfl | rfl | rfl | rfl | rfl | rfl | rfl | rfl <;>
    simp [words, Ref32.word, Bytes.setAt, List.replicate]

theorem addByte_eq (A : Words) (b : Byte) (offset : Nat) (h : offset < 200) :
    ∃ A', addByte A b offset = some A' ∧ view32 A' = Bytes.xorAt (view32 A) offset [b] := by
  have hp : offset / 8 < 25 := by omega
  obtain ⟨A', e1, e2⟩ := lanes_onLane_xor A (offset / 8) hp (words (Bytes.setAt (List.replicate 8 0) (offset % 8) [b])).1
    (words (Bytes.setAt (List.replicate 8 0) (offset % 8) [b])).2
  have := view32_xor (A := A) (A' := A') (d := [b]) (o := offset % 8) hp (by simp; omega) (by
    rw [e2, ← append_word]; rfl)
  refine ⟨A', ?_, by rw [this, Nat.div_add_mod']⟩
  rw [addByte, byte_words b (offset % 8) (by omega)]
  exact e1

theorem view32_init : view32 initState = List.replicate 200 0 := by
  exact (congrArg bytesOfLanes lanes_zero).trans bytesOfLanes_zero

theorem implements : access.Implements 200 (fun _ => True) view32 :=
  ops_sound.implements (by omega) length_view32 access rfl rfl rfl rfl view32_init addByte_eq overwriteWithZeroes_eq

end KeccakP1600.Inplace32

namespace KeccakP1600.Ref32

theorem implements : access.Implements 200 (fun _ => True) view32 :=
  Access.implements_of length_view32 access addBytes_eq overwriteBytes_eq
    (fun A o len h => by
      refine (Relaned.readLoop_eq (width := 200) (by omega : 0 < 8) (view32 A) _ (extractBytesInLane_eq A) (len + 1) (o / 8) (o % 8) len
        (by omega) (by omega) (by omega)).trans ?_
      rw [show o / 8 * 8 + o % 8 = o by omega])
    (fun A d o len h hd => by
      refine (Relaned.xorLoop_eq (width := 200) (by omega : 0 < 8) (view32 A) (length_view32 A) _ (extractAndAddBytesInLane_eq A) (len + 1) (o / 8) (o % 8) d len
        (by omega) (by omega) (by omega) hd).trans ?_
      rw [show o / 8 * 8 + o % 8 = o by omega])
    (by rw [view32]; exact (congrArg bytesOfLanes lanes_zero).trans bytesOfLanes_zero)
    (fun A b o h => addBytes_eq A [b] o 1 (by omega) (by simp))
    (fun A n h => zeroLoop_eq (n + 1) A 0 n (by omega) (by omega))

end KeccakP1600.Ref32
