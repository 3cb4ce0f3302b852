import Verif.Model.X86
import Verif.Proofs.ByteAccess
import Verif.Proofs.KeccakPlane512

/-!
The loops over bytes that the assembly implementations share.
-/

namespace X86

open KeccakP1600 (Lane wordOfBytes bytesOfWord byteOf)

theorem sub64_eq {a b : Nat} (h : b ≤ a) (ha : a < 2 ^ 64) : sub64 a b = a - b := by unfold sub64; omega

theorem add_sub64 {a b : Nat} (h : a < b) (hb : b < 2 ^ 64) : add64 (sub64 a b) b = a := by unfold sub64 add64; omega

theorem rd64_ok (m : Bytes) (a : Nat) (h : a + 8 ≤ m.length) : rd64 m a = some (wordOfBytes (m.drop a)) := by
  rw [rd64, SnP.readBuf_some (by simp; omega), Option.bind_eq_bind, Option.bind_some, KeccakP1600.wordOfBytes_take]

theorem wr64_ok (m : Bytes) (a : Nat) (w : Lane) (h : a + 8 ≤ m.length) : wr64 m a w = some (Bytes.setAt m a (bytesOfWord w)) := by
  rw [wr64, Simd.storeWord, SnP.overwriteBytes, if_pos (by rw [KeccakP1600.length_bytesOfWord]; omega)]

theorem rd8_ok (m : Bytes) (a : Nat) (h : a < m.length) : rd8 m a = some (m.getD a 0) := by
  rw [rd8, List.getD_eq_getElem?_getD, List.getElem?_eq_getElem h]; rfl

/-- Lists of the same length with the same bytes are equal. -/
theorem ext_getD {s t : Bytes} (hl : s.length = t.length) (h : ∀ j, j < s.length → s.getD j 0 = t.getD j 0) : s = t := by
  apply List.ext_getElem hl
  intro j h1 h2
  have := h j h1
  rwa [List.getD_eq_getElem?_getD, List.getD_eq_getElem?_getD, List.getElem?_eq_getElem h1, List.getElem?_eq_getElem h2] at this

theorem getD_slice (s : Bytes) (o n q : Nat) (h : q < n) : (Bytes.slice s o n).getD q 0 = s.getD (o + q) 0 := by
  rw [List.getD_eq_getElem?_getD, Bytes.getElem?_slice, if_pos h, ← List.getD_eq_getElem?_getD]

theorem getD_bytesOfWord (w : Lane) (k : Nat) (h : k < 8) : (bytesOfWord w).getD k 0 = byteOf w k := by
  rw [List.getD_eq_getElem?_getD, KeccakP1600.getElem?_bytesOfWord, if_pos h]; rfl

theorem byteOf_drop (m : Bytes) (a k : Nat) (h : k < 8) : byteOf (wordOfBytes (m.drop a)) k = m.getD (a + k) 0 := by
  rw [KeccakP1600.byteOf_wordOfBytes _ _ h, List.getD_eq_getElem?_getD, List.getElem?_drop, ← List.getD_eq_getElem?_getD]

/-- The bytes `d` combined with those of `s` from `o` on. -/
def opAt (op : Op) (s : Bytes) (o : Nat) (d : Bytes) : Bytes :=
  match op with
  | .xor => Bytes.xorAt s o d
  | .mov => Bytes.setAt s o d

@[simp] theorem length_opAt (op : Op) (s : Bytes) (o : Nat) (d : Bytes) : (opAt op s o d).length = s.length := by
  cases op
  · exact Bytes.length_xorAt _ _ _
  · exact Bytes.length_setAt _ _ _

theorem getD_opAt (op : Op) (s : Bytes) (o : Nat) (d : Bytes) (j : Nat) (h : j < s.length) : (opAt op s o d).getD j 0 =
    if o ≤ j ∧ j < o + d.length then op.on (s.getD j 0) (d.getD (j - o) 0) else s.getD j 0 := by
  cases op
  · refine (Bytes.getD_xorAt s o d j h).trans ?_
    by_cases h1 : o ≤ j
    · by_cases h2 : j < o + d.length
      · rw [if_pos h1, if_pos ⟨h1, h2⟩]; rfl
      · rw [if_pos h1, if_neg (by omega), List.getD_eq_getElem?_getD (l := d), List.getElem?_eq_none (by omega)]
        exact BitVec.xor_zero
    · rw [if_neg h1, if_neg (by omega)]; exact BitVec.xor_zero
  · exact Bytes.getD_setAt s o d j h

theorem opAt_nil (op : Op) (s : Bytes) (o : Nat) : opAt op s o [] = s := by
  cases op
  · exact Bytes.xorAt_nil _ _
  · exact Bytes.setAt_nil _ _

theorem opAt_append (op : Op) (s : Bytes) (o : Nat) (d e : Bytes) : opAt op (opAt op s o d) (o + d.length) e = opAt op s o (d ++ e) := by
  cases op
  · exact Bytes.xorAt_append _ _ _ _
  · exact Bytes.setAt_append _ _ _ _

/-- Combining a byte with the memory. -/
theorem wr8_ok (op : Op) (m : Bytes) (a : Nat) (b : Byte) (h : a < m.length) :
    wr8 m a (op.on (m.getD a 0) b) = some (opAt op m a [b]) := by
  rw [wr8, if_pos h]
  congr 1
  apply ext_getD (by simp)
  intro j hj
  rw [List.length_set] at hj
  rw [getD_opAt op _ _ _ _ hj, List.getD_eq_getElem?_getD, List.getElem?_set]
  by_cases e : a = j
  · subst e
    rw [if_pos rfl, if_pos h, if_pos (by simp), Nat.sub_self]; rfl
  · rw [if_neg e, if_neg (by simp only [List.length_singleton]; omega), ← List.getD_eq_getElem?_getD]

/-- Combining a word with the memory. -/
theorem wr64_op (op : Op) (m data : Bytes) (a i : Nat) (h : a + 8 ≤ m.length) (hd : i + 8 ≤ data.length) :
    wr64 m a (op.on (wordOfBytes (m.drop a)) (wordOfBytes (data.drop i))) = some (opAt op m a (Bytes.slice data i 8)) := by
  have hl : (Bytes.slice data i 8).length = 8 := Bytes.length_slice_of_le hd
  rw [wr64_ok _ _ _ h]
  congr 1
  apply ext_getD (by rw [length_opAt, Bytes.length_setAt])
  intro j hj
  rw [Bytes.length_setAt] at hj
  rw [getD_opAt op _ _ _ _ hj, Bytes.getD_setAt _ _ _ _ hj, KeccakP1600.length_bytesOfWord, hl]
  split
  · rename_i hc
    have hk : j - a < 8 := by omega
    rw [getD_bytesOfWord _ _ hk, getD_slice _ _ _ _ hk]
    have e1 := byteOf_drop m a (j - a) hk
    rw [show a + (j - a) = j by omega] at e1
    have e2 := byteOf_drop data i (j - a) hk
    cases op
    · show byteOf (_ ^^^ _) _ = _ ^^^ _
      rw [KeccakP1600.byteOf_xor, e1, e2]
    · exact e2
  · rfl

theorem slice_one (data : Bytes) (i : Nat) (h : i < data.length) : Bytes.slice data i 1 = [data.getD i 0] := by
  apply ext_getD (by rw [Bytes.length_slice_of_le (by omega)]; rfl)
  intro j hj
  rw [Bytes.length_slice_of_le (by omega)] at hj
  rw [getD_slice _ _ _ _ hj, show j = 0 by omega]; rfl

theorem bytesLoop_eq (op : Op) (data : Bytes) : ∀ (n fuel : Nat) (st : Bytes) (i a : Nat), n < fuel → n + 1 < 2 ^ 64 → i + (n + 1) ≤ data.length →
    a + (n + 1) ≤ st.length → bytesLoop op data fuel st i a (n + 1) = some (opAt op st a (Bytes.slice data i (n + 1)), i + (n + 1), a + (n + 1)) := by
  intro n
  induction n with
  | zero =>
    intro fuel st i a hf _ h1 h2
    obtain ⟨fuel, rfl⟩ : ∃ f, fuel = f + 1 := ⟨fuel - 1, by omega⟩
    rw [bytesLoop, rd8_ok _ _ (by omega), rd8_ok _ _ (by omega)]
    simp only [Option.bind_eq_bind, Option.bind_some]
    rw [wr8_ok _ _ _ _ (by omega), slice_one _ _ (by omega)]
    rfl
  | succ n ih =>
    intro fuel st i a hf hn h1 h2
    obtain ⟨fuel, rfl⟩ : ∃ f, fuel = f + 1 := ⟨fuel - 1, by omega⟩
    rw [bytesLoop, rd8_ok _ _ (by omega), rd8_ok _ _ (by omega)]
    simp only [Option.bind_eq_bind, Option.bind_some]
    rw [wr8_ok _ _ _ _ (by omega), Option.bind_some, sub64_eq (by omega) hn, show n + 1 + 1 - 1 = n + 1 by omega, if_pos (by omega),
      ih fuel _ _ _ (by omega) (by omega) (by omega) (by rw [length_opAt]; omega), ← slice_one data i (by omega)]
    have e : a + 1 = a + (Bytes.slice data i 1).length := by rw [Bytes.length_slice_of_le (by omega)]
    rw [Nat.add_assoc a 1 (n + 1), e, opAt_append, Relaned.slice_append, Nat.add_comm 1 (n + 1), Nat.add_assoc i 1 (n + 1), Nat.add_comm 1 (n + 1)]

theorem zeroLoop_eq : ∀ (n fuel : Nat) (st : Bytes) (a : Nat), n < fuel → n + 1 < 2 ^ 64 →
    a + (n + 1) ≤ st.length → zeroLoop fuel st a (n + 1) = some (opAt .mov st a (List.replicate (n + 1) 0)) := by
  intro n
  induction n with
  | zero =>
    intro fuel st a hf _ h2
    obtain ⟨fuel, rfl⟩ : ∃ f, fuel = f + 1 := ⟨fuel - 1, by omega⟩
    rw [zeroLoop]
    have e := wr8_ok .mov st a 0 (by omega)
    simp only [Op.on] at e
    rw [e]
    rfl
  | succ n ih =>
    intro fuel st a hf hn h2
    obtain ⟨fuel, rfl⟩ : ∃ f, fuel = f + 1 := ⟨fuel - 1, by omega⟩
    rw [zeroLoop]
    have e := wr8_ok .mov st a 0 (by omega)
    simp only [Op.on] at e
    rw [e, Option.bind_eq_bind, Option.bind_some, sub64_eq (by omega) hn, show n + 1 + 1 - 1 = n + 1 by omega]
    show (if n + 1 ≠ 0 then _ else _) = _
    rw [if_pos (by omega),
      ih fuel _ _ (by omega) (by omega) (by rw [length_opAt]; omega)]
    have e : a + 1 = a + ([0] : Bytes).length := rfl
    rw [e, opAt_append]
    rfl

/-! ### Output -/

/-- `n` bytes from `a` on. -/
def outOf (st : Bytes) (a n : Nat) : Bytes := (List.range n).map fun q => st.getD (a + q) 0

theorem outOf_add (st : Bytes) (a m n : Nat) : outOf st a m ++ outOf st (a + m) n = outOf st a (m + n) := by
  unfold outOf
  rw [List.range_add, List.map_append, List.map_map]
  congr 1
  apply List.map_congr_left
  intro q _
  show st.getD (a + m + q) 0 = st.getD (a + (m + q)) 0
  rw [Nat.add_assoc]

theorem outOf_eq (st : Bytes) (a n : Nat) (h : a + n ≤ st.length) : outOf st a n = Bytes.slice st a n := by
  apply ext_getD (by rw [Bytes.length_slice_of_le h]; simp [outOf])
  intro j hj
  have hj : j < n := by simpa [outOf] using hj
  rw [getD_slice _ _ _ _ hj, outOf, List.getD_eq_getElem?_getD, List.getElem?_map, List.getElem?_range hj]
  rfl

/-- The bytes from `a` on with those of `input` from `i` on added. -/
def mixOf (st input : Bytes) (a i n : Nat) : Bytes := (List.range n).map fun q => st.getD (a + q) 0 ^^^ input.getD (i + q) 0

theorem mixOf_add (st input : Bytes) (a i m n : Nat) : mixOf st input a i m ++ mixOf st input (a + m) (i + m) n = mixOf st input a i (m + n) := by
  unfold mixOf
  rw [List.range_add, List.map_append, List.map_map]
  congr 1
  apply List.map_congr_left
  intro q _
  show st.getD (a + m + q) 0 ^^^ input.getD (i + m + q) 0 = st.getD (a + (m + q)) 0 ^^^ input.getD (i + (m + q)) 0
  rw [Nat.add_assoc, Nat.add_assoc]

theorem mixOf_eq (st input : Bytes) (a n : Nat) (h1 : a + n ≤ st.length) (h2 : n ≤ input.length) :
    mixOf st input a 0 n = Bytes.xor (input.take n) (Bytes.slice st a n) := by
  have hs := Bytes.xor_slice_spec st input a n h1 h2
  apply ext_getD (by rw [hs.1]; simp [mixOf])
  intro j hj
  have hj : j < n := by simpa [mixOf] using hj
  rw [hs.2 j hj, mixOf, List.getD_eq_getElem?_getD, List.getElem?_map, List.getElem?_range hj, BitVec.xor_comm]
  show _ ^^^ input.getD (0 + j) 0 = _
  rw [Nat.zero_add]

theorem outLoop_eq (st : Bytes) : ∀ (n fuel a : Nat) (out : Bytes), n < fuel → n + 1 < 2 ^ 64 → a + (n + 1) ≤ st.length →
    outLoop st fuel a (n + 1) out = some (a + (n + 1), out ++ outOf st a (n + 1)) := by
  intro n
  induction n with
  | zero =>
    intro fuel a out hf _ h2
    obtain ⟨fuel, rfl⟩ : ∃ f, fuel = f + 1 := ⟨fuel - 1, by omega⟩
    rw [outLoop, rd8_ok _ _ (by omega)]
    rfl
  | succ n ih =>
    intro fuel a out hf hn h2
    obtain ⟨fuel, rfl⟩ : ∃ f, fuel = f + 1 := ⟨fuel - 1, by omega⟩
    rw [outLoop, rd8_ok _ _ (by omega)]
    simp only [Option.bind_eq_bind, Option.bind_some]
    rw [sub64_eq (by omega) hn, show n + 1 + 1 - 1 = n + 1 by omega, if_pos (by omega),
      ih fuel _ _ (by omega) (by omega) (by omega), List.append_assoc, Nat.add_assoc a, Nat.add_comm (n + 1) 1, ← outOf_add st a 1 (n + 1)]
    rfl

theorem setWidth_byteOf (r : Lane) : r.setWidth 8 = byteOf r 0 := by
  apply KeccakP1600.byte_ext
  intro t ht
  rw [KeccakP1600.getLsbD_byteOf _ _ _ ht]
  simp [ht]

theorem byteOf_shr (r : Lane) (k : Nat) : byteOf (r >>> 8) k = byteOf r (1 + k) := KeccakP1600.byteOf_shiftRight r 1 k

theorem outWordLoop_eq : ∀ (n fuel : Nat) (r : Lane) (out : Bytes), n < fuel → n + 1 < 2 ^ 64 →
    outWordLoop fuel r (n + 1) out = some (out ++ (List.range (n + 1)).map (byteOf r)) := by
  intro n
  induction n with
  | zero =>
    intro fuel r out hf _
    obtain ⟨fuel, rfl⟩ : ∃ f, fuel = f + 1 := ⟨fuel - 1, by omega⟩
    rw [outWordLoop, setWidth_byteOf]
    rfl
  | succ n ih =>
    intro fuel r out hf hn
    obtain ⟨fuel, rfl⟩ : ∃ f, fuel = f + 1 := ⟨fuel - 1, by omega⟩
    rw [outWordLoop, setWidth_byteOf, sub64_eq (by omega) hn, show n + 1 + 1 - 1 = n + 1 by omega, if_pos (by omega),
      ih fuel _ _ (by omega) (by omega), List.append_assoc, Nat.add_comm (n + 1) 1, @List.range_add 1 (n + 1), List.map_append, List.map_map]
    congr 2
    congr 1
    apply List.map_congr_left
    intro q _
    exact byteOf_shr r q

theorem outWord_eq (st : Bytes) (a n : Nat) (h : n ≤ 8) : (List.range n).map (byteOf (wordOfBytes (st.drop a))) = outOf st a n := by
  apply List.map_congr_left
  intro q hq
  exact byteOf_drop st a q (by have := List.mem_range.1 hq; omega)

theorem bytesOfWord_out (st : Bytes) (a : Nat) : bytesOfWord (wordOfBytes (st.drop a)) = outOf st a 8 := by
  rw [← outWord_eq st a 8 (by decide)]
  apply ext_getD (by rw [KeccakP1600.length_bytesOfWord]; simp)
  intro j hj
  rw [KeccakP1600.length_bytesOfWord] at hj
  rw [getD_bytesOfWord _ _ hj, List.getD_eq_getElem?_getD, List.getElem?_map, List.getElem?_range hj]
  rfl

theorem xorOutLoop_eq (st input : Bytes) : ∀ (n fuel i a : Nat) (out : Bytes), n < fuel → n + 1 < 2 ^ 64 → a + (n + 1) ≤ st.length →
    i + (n + 1) ≤ input.length → xorOutLoop st input fuel i a (n + 1) out = some (i + (n + 1), a + (n + 1), out ++ mixOf st input a i (n + 1)) := by
  intro n
  induction n with
  | zero =>
    intro fuel i a out hf _ h2 h3
    obtain ⟨fuel, rfl⟩ : ∃ f, fuel = f + 1 := ⟨fuel - 1, by omega⟩
    rw [xorOutLoop, rd8_ok _ _ (by omega), rd8_ok _ _ (by omega)]
    rfl
  | succ n ih =>
    intro fuel i a out hf hn h2 h3
    obtain ⟨fuel, rfl⟩ : ∃ f, fuel = f + 1 := ⟨fuel - 1, by omega⟩
    rw [xorOutLoop, rd8_ok _ _ (by omega), rd8_ok _ _ (by omega)]
    simp only [Option.bind_eq_bind, Option.bind_some]
    rw [sub64_eq (by omega) hn, show n + 1 + 1 - 1 = n + 1 by omega, if_pos (by omega),
      ih fuel _ _ _ (by omega) (by omega) (by omega) (by omega), List.append_assoc, Nat.add_assoc i, Nat.add_assoc a, Nat.add_comm (n + 1) 1, ← mixOf_add st input a i 1 (n + 1)]
    rfl

theorem byteOf_xor_byte (r : Lane) (b : Byte) (k : Nat) : byteOf (r ^^^ b.setWidth 64) k = byteOf r k ^^^ if k = 0 then b else 0 := by
  rw [KeccakP1600.byteOf_xor, KeccakP1600.byteOf_setWidth]

theorem xorOutWordLoop_eq (input : Bytes) : ∀ (n fuel : Nat) (r : Lane) (i : Nat) (out : Bytes), n < fuel → n + 1 < 2 ^ 64 →
    i + (n + 1) ≤ input.length →
    xorOutWordLoop input fuel r i (n + 1) out = some (out ++ (List.range (n + 1)).map fun q => byteOf r q ^^^ input.getD (i + q) 0) := by
  intro n
  induction n with
  | zero =>
    intro fuel r i out hf _ h3
    obtain ⟨fuel, rfl⟩ : ∃ f, fuel = f + 1 := ⟨fuel - 1, by omega⟩
    rw [xorOutWordLoop, rd8_ok _ _ (by omega)]
    simp only [Option.bind_eq_bind, Option.bind_some]
    rw [setWidth_byteOf, byteOf_xor_byte]
    rfl
  | succ n ih =>
    intro fuel r i out hf hn h3
    obtain ⟨fuel, rfl⟩ : ∃ f, fuel = f + 1 := ⟨fuel - 1, by omega⟩
    rw [xorOutWordLoop, rd8_ok _ _ (by omega)]
    simp only [Option.bind_eq_bind, Option.bind_some]
    rw [setWidth_byteOf, byteOf_xor_byte, if_pos rfl, sub64_eq (by omega) hn, show n + 1 + 1 - 1 = n + 1 by omega, if_pos (by omega),
      ih fuel _ _ _ (by omega) (by omega) (by omega), List.append_assoc, Nat.add_comm (n + 1) 1, @List.range_add 1 (n + 1), List.map_append, List.map_map]
    have e0 : [byteOf r 0 ^^^ input.getD i 0] = (List.range 1).map fun q => byteOf r q ^^^ input.getD (i + q) 0 := rfl
    rw [e0]
    generalize (List.range 1).map (fun q => byteOf r q ^^^ input.getD (i + q) 0) = l0
    refine congrArg (fun l => some (out ++ (l0 ++ l))) ?_
    apply List.map_congr_left
    intro q _
    show byteOf ((r ^^^ (input.getD i 0).setWidth 64) >>> 8) q ^^^ input.getD (i + 1 + q) 0 = byteOf r (1 + q) ^^^ input.getD (i + (1 + q)) 0
    have e1 : (0 : Byte) = 0#8 := rfl
    rw [byteOf_shr, byteOf_xor_byte, if_neg (by omega), Nat.add_assoc, e1, BitVec.xor_zero]

theorem mixWord_eq (st input : Bytes) (a i n : Nat) (h : n ≤ 8) :
    ((List.range n).map fun q => byteOf (wordOfBytes (st.drop a)) q ^^^ input.getD (i + q) 0) = mixOf st input a i n := by
  apply List.map_congr_left
  intro q hq
  rw [byteOf_drop st a q (by have := List.mem_range.1 hq; omega)]

theorem bytesOfWord_mix (st input : Bytes) (a i : Nat) :
    bytesOfWord (wordOfBytes (st.drop a) ^^^ wordOfBytes (input.drop i)) = mixOf st input a i 8 := by
  apply ext_getD (by rw [KeccakP1600.length_bytesOfWord]; simp [mixOf])
  intro j hj
  rw [KeccakP1600.length_bytesOfWord] at hj
  rw [getD_bytesOfWord _ _ hj, KeccakP1600.byteOf_xor, byteOf_drop _ _ _ hj, byteOf_drop _ _ _ hj, mixOf, List.getD_eq_getElem?_getD (l := List.map _ _),
    List.getElem?_map, List.getElem?_range hj]
  rfl

/-! ### Arithmetic on offsets -/

set_option maxRecDepth 4000 in
theorem and32_eq : ∀ o : Fin 200, and32 o.val 0xFFFFFFF8 = o.val / 8 * 8 := by decide

theorem and7_eq (o : Nat) : o &&& 7 = o % 8 := Nat.and_two_pow_sub_one_eq_mod o 3

theorem cmovae_eq (a b : Nat) : cmovae a b = min a b := by unfold cmovae; split <;> omega

/-- Words added to the first lanes are bytes added to the start of the state. -/
theorem bytes_xor (A A' : KeccakP1600.Lanes) (data : Bytes) (pos n : Nat) (h : pos + n * 8 ≤ data.length)
    (hl : ∀ i : Fin 25, A' i = if i.val < n then A i ^^^ wordOfBytes (data.drop (pos + 8 * i.val)) else A i) :
    KeccakP1600.bytesOfLanes A' = Bytes.xorAt (KeccakP1600.bytesOfLanes A) 0 ((data.drop pos).take (n * 8)) := by
  apply List.ext_getElem?
  intro j
  rw [Bytes.getElem?_xorAt, KeccakP1600.getElem?_bytesOfLanes, KeccakP1600.getElem?_bytesOfLanes]
  split
  · rw [hl]
    simp only [Option.map_some, Option.some.injEq]
    rw [if_pos (Nat.zero_le j), Nat.sub_zero, List.getD_eq_getElem?_getD, List.getElem?_take, List.getElem?_drop]
    by_cases hj : j / 8 < n
    · rw [if_pos hj, if_pos (by omega), KeccakP1600.byteOf_xor, KeccakP1600.byteOf_wordOfBytes _ _ (by omega), List.getD_eq_getElem?_getD,
        List.getElem?_drop, show pos + 8 * (j / 8) + j % 8 = pos + j by omega]
    · rw [if_neg hj, if_neg (by omega)]
      exact BitVec.xor_zero.symm
  · rfl

end X86
