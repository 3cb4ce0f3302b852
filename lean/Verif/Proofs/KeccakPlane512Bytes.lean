import Verif.Proofs.KeccakPlane512
import Verif.Proofs.ByteAccess

/-!
Byte access and fast absorption of the AVX-512 implementation in C.
-/

namespace Plane512

open KeccakP1600 (Lane Lanes wordOfBytes bytesOfWord bytesOfLanes byteOf)
open Simd (Vec xor)

theorem xorAt_take (s d : Bytes) (o k j : Nat) (hk : k ≤ d.length) :
    Bytes.xorAt (Bytes.xorAt s o (d.take k)) (o + k) ((d.drop k).take j) = Bytes.xorAt s o (d.take (k + j)) := by
  have h : (d.take k).length = k := by simp; omega
  have := Bytes.xorAt_append s o (d.take k) ((d.drop k).take j)
  rw [h] at this
  rw [this, List.take_add]

theorem addByte_eq (st : Bytes) (b : Byte) (o : Nat) (h : o < st.length) : addByte st b o = some (Bytes.xorAt st o [b]) := by
  have e : st[o]? = some st[o] := List.getElem?_eq_getElem h
  unfold addByte
  rw [e]
  show some (st.set o (st[o] ^^^ b)) = _
  rw [KeccakP1600.Ref.set_eq_xorAt st o _ b e]

theorem take_one (d : Bytes) (h : 0 < d.length) : d[0]? = some d[0] ∧ [d[0]] = d.take 1 := by
  refine ⟨List.getElem?_eq_getElem h, ?_⟩
  cases d with
  | nil => simp at h
  | cons a d => rfl

/-- What a part of `AddBytes` does that treats `k` bytes. -/
def Added (st data : Bytes) (offset length k : Nat) : Bytes × Bytes × Nat × Nat :=
  (Bytes.xorAt st offset (data.take k), data.drop k, offset + k, length - k)

theorem addHead_eq : ∀ (length : Nat) (st data : Bytes) (offset : Nat), offset + length ≤ st.length → length ≤ data.length →
    ∃ k, k ≤ length ∧ addHead length st data offset = some (Added st data offset length k) := by
  intro length
  induction length with
  | zero => intro st data offset _ _; exact ⟨0, Nat.le_refl 0, by simp [addHead, Added]⟩
  | succ length ih =>
    intro st data offset h1 h2
    rw [addHead]
    simp only [Option.bind_eq_bind]
    by_cases hm : offset % 8 ≠ 0
    · obtain ⟨e1, e2⟩ := take_one data (by omega)
      obtain ⟨k, hk, e3⟩ := ih (Bytes.xorAt st offset (data.take 1)) (data.drop 1) (offset + 1)
        (by rw [Bytes.length_xorAt]; omega) (by rw [List.length_drop]; omega)
      refine ⟨1 + k, by omega, ?_⟩
      rw [if_pos hm, e1, Option.bind_some, addByte_eq _ _ _ (by omega), Option.bind_some, e2, e3]
      unfold Added
      rw [xorAt_take _ _ _ _ _ (by omega), List.drop_drop, Nat.add_assoc, show length - k = length + 1 - (1 + k) by omega]
    · exact ⟨0, Nat.zero_le _, by rw [if_neg hm]; simp [Added]⟩

theorem words_xor (n : Nat) (hn : n ≤ 8) (st data : Bytes) (o : Nat) :
    wordsOf n (xor (fun i => if i.val < n then wordOfBytes (st.drop (o + 8 * i.val)) else 0)
      (fun i => if i.val < n then wordOfBytes (data.drop (0 + 8 * i.val)) else 0)) =
      (List.range (8 * n)).map fun q => st.getD (o + q) 0 ^^^ data.getD q 0 := by
  apply List.ext_getElem?
  intro q
  by_cases hq : q < 8 * n
  · rw [getD_wordsOf _ _ _ hq, List.getElem?_map, List.getElem?_range hq, Option.map_some]
    have h8 : q / 8 < 8 := by omega
    have hqn : q / 8 < n := by omega
    congr 1
    rw [Simd.Vec.at, dif_pos h8]
    show byteOf ((if q / 8 < n then _ else 0) ^^^ (if q / 8 < n then _ else 0)) (q % 8) = _
    rw [if_pos hqn, if_pos hqn, KeccakP1600.byteOf_xor, KeccakP1600.byteOf_wordOfBytes _ _ (by omega),
      KeccakP1600.byteOf_wordOfBytes _ _ (by omega)]
    simp only [List.getD_eq_getElem?_getD, List.getElem?_drop]
    rw [show o + 8 * (q / 8) + q % 8 = o + q by omega, show 0 + 8 * (q / 8) + q % 8 = q by omega]
  · rw [List.getElem?_eq_none (by rw [length_wordsOf]; omega), List.getElem?_eq_none (by simp; omega)]

theorem setAt_xor (n : Nat) (st data : Bytes) (o : Nat) :
    Bytes.setAt st o ((List.range (8 * n)).map fun q => st.getD (o + q) 0 ^^^ data.getD q 0) =
      Bytes.xorAt st o (data.take (8 * n)) := by
  apply List.ext_getElem?
  intro j
  rw [Bytes.getElem?_setAt, Bytes.getElem?_xorAt]
  cases hj : st[j]? with
  | none => rfl
  | some a =>
    simp only [Option.map_some, Option.some.injEq, List.length_map, List.length_range, List.getD_eq_getElem?_getD,
      List.getElem?_map, List.getElem?_take]
    by_cases h1 : o ≤ j
    · by_cases h2 : j - o < 8 * n
      · rw [if_pos (by omega), if_pos h1, if_pos h2, List.getElem?_range h2]
        simp only [Option.map_some, Option.getD_some]
        rw [show o + (j - o) = j by omega, hj]; rfl
      · rw [if_neg (by omega), if_pos h1, if_neg h2]
        exact BitVec.xor_zero.symm
    · rw [if_neg (by omega), if_neg h1]
      exact BitVec.xor_zero.symm

theorem addLanesLoop_eq (n : Nat) (h0 : 0 < n) (hn : n ≤ 8) : ∀ (fuel : Nat) (st data : Bytes) (offset length : Nat), length < fuel →
    offset + length ≤ st.length → length ≤ data.length →
    ∃ k, k ≤ length ∧ addLanesLoop (2 ^ n - 1) (8 * n) fuel st data offset length = some (Added st data offset length k) := by
  intro fuel
  induction fuel with
  | zero => intro st data offset length h; omega
  | succ fuel ih =>
    intro st data offset length hf h1 h2
    rw [addLanesLoop]
    simp only [Option.bind_eq_bind]
    by_cases hl : length ≥ 8 * n
    · obtain ⟨k, hk, e3⟩ := ih (Bytes.xorAt st offset (data.take (8 * n))) (data.drop (8 * n)) (offset + 8 * n) (length - 8 * n)
        (by omega) (by rw [Bytes.length_xorAt]; omega) (by rw [List.length_drop]; omega)
      refine ⟨8 * n + k, by omega, ?_⟩
      rw [if_pos hl, load_ok n _ _ (by omega), Option.bind_some, load_ok n _ _ (by omega), Option.bind_some,
        store_ok n hn _ _ _ (by omega), Option.bind_some, words_xor n hn, setAt_xor n, e3]
      unfold Added
      rw [xorAt_take _ _ _ _ _ (by omega), List.drop_drop, Nat.add_assoc, show length - 8 * n - k = length - (8 * n + k) by omega]
    · exact ⟨0, Nat.zero_le _, by rw [if_neg hl]; simp [Added]⟩

theorem addTail_eq : ∀ (length : Nat) (st data : Bytes) (offset : Nat), offset + length ≤ st.length → length ≤ data.length →
    addTail length st data offset = some (Bytes.xorAt st offset (data.take length)) := by
  intro length
  induction length with
  | zero => intro st data offset _ _; simp [addTail]
  | succ length ih =>
    intro st data offset h1 h2
    obtain ⟨e1, e2⟩ := take_one data (by omega)
    rw [addTail]
    simp only [Option.bind_eq_bind]
    rw [e1, Option.bind_some, addByte_eq _ _ _ (by omega), Option.bind_some, e2,
      ih _ _ _ (by rw [Bytes.length_xorAt]; omega) (by rw [List.length_drop]; omega), xorAt_take _ _ _ _ _ (by omega),
      Nat.add_comm 1]

theorem addBytes_eq (st data : Bytes) (offset length : Nat) (h1 : offset + length ≤ st.length) (h2 : length ≤ data.length) :
    addBytes st data offset length = some (Bytes.xorAt st offset (data.take length)) := by
  obtain ⟨a, ha, e1⟩ := addHead_eq length st data offset h1 h2
  obtain ⟨b, hb, e2⟩ := addLanesLoop_eq 8 (by decide) (by decide) (length - a + 1) (Bytes.xorAt st offset (data.take a)) (data.drop a)
    (offset + a) (length - a) (by omega) (by rw [Bytes.length_xorAt]; omega) (by rw [List.length_drop]; omega)
  obtain ⟨c, hc, e3⟩ := addLanesLoop_eq 1 (by decide) (by decide) (length - a - b + 1)
    (Bytes.xorAt (Bytes.xorAt st offset (data.take a)) (offset + a) ((data.drop a).take b)) ((data.drop a).drop b)
    (offset + a + b) (length - a - b) (by omega) (by rw [Bytes.length_xorAt, Bytes.length_xorAt]; omega)
    (by rw [List.length_drop, List.length_drop]; omega)
  change addLanesLoop 0xFF (8 * 8) _ _ _ _ _ = _ at e2
  change addLanesLoop 0x01 8 _ _ _ _ _ = _ at e3
  unfold Added at e1 e2 e3
  unfold addBytes
  simp only [Option.bind_eq_bind]
  rw [e1, Option.bind_some]
  simp only []
  rw [e2, Option.bind_some]
  simp only []
  rw [e3, Option.bind_some]
  simp only []
  rw [xorAt_take st data offset a b (by omega), List.drop_drop, Nat.add_assoc offset a b,
    xorAt_take st data offset (a + b) c (by omega), List.drop_drop, Nat.add_assoc offset (a + b) c, addTail_eq _ _ _ _ (by rw [Bytes.length_xorAt]; omega) (by rw [List.length_drop]; omega),
    xorAt_take _ _ _ _ _ (by omega), show a + b + c + (length - a - b - c) = length by omega]

/-! ### Extraction -/

/-- The bytes extracted from the state and added to the input. -/
def outOf (st input : Bytes) (offset k : Nat) : Bytes := (List.range k).map fun q => st.getD (offset + q) 0 ^^^ input.getD q 0

theorem outOf_add (st input : Bytes) (o k j : Nat) : outOf st input o k ++ outOf st (input.drop k) (o + k) j = outOf st input o (k + j) := by
  unfold outOf
  rw [List.range_add, List.map_append, List.map_map]
  congr 1
  apply List.map_congr_left
  intro q _
  simp [List.getD_eq_getElem?_getD, List.getElem?_drop, Nat.add_assoc]

/-- What a part of `ExtractAndAddBytes` does that treats `k` bytes. -/
def Taken (st out input : Bytes) (offset length k : Nat) : Bytes × Bytes × Nat × Nat :=
  (out ++ outOf st input offset k, input.drop k, offset + k, length - k)

theorem outOf_one (st input : Bytes) (o : Nat) (h1 : o < st.length) (h2 : 0 < input.length) :
    outOf st input o 1 = [st[o] ^^^ input[0]] := by
  simp [outOf, List.getD_eq_getElem?_getD, List.getElem?_eq_getElem h1, List.getElem?_eq_getElem h2]

theorem outHead_eq (st : Bytes) : ∀ (length : Nat) (out input : Bytes) (offset : Nat), offset + length ≤ st.length →
    length ≤ input.length →
    ∃ k, k ≤ length ∧ outHead st length out input offset = some (Taken st out input offset length k) := by
  intro length
  induction length with
  | zero => intro out input offset _ _; exact ⟨0, Nat.le_refl 0, by simp [outHead, Taken, outOf]⟩
  | succ length ih =>
    intro out input offset h1 h2
    rw [outHead]
    simp only [Option.bind_eq_bind]
    by_cases hm : offset % 8 ≠ 0
    · obtain ⟨e1, e2⟩ := take_one input (by omega)
      have e4 := outOf_one st input offset (by omega) (by omega)
      obtain ⟨k, hk, e3⟩ := ih (out ++ outOf st input offset 1) (input.drop 1) (offset + 1) (by omega) (by rw [List.length_drop]; omega)
      refine ⟨1 + k, by omega, ?_⟩
      rw [if_pos hm, e1, Option.bind_some, List.getElem?_eq_getElem (show offset < st.length by omega),
        Option.bind_some, ← e4, e3]
      unfold Taken
      rw [List.append_assoc, outOf_add, List.drop_drop, Nat.add_assoc, show length - k = length + 1 - (1 + k) by omega]
    · exact ⟨0, Nat.zero_le _, by rw [if_neg hm]; simp [Taken, outOf]⟩

theorem outLanesLoop_eq (st : Bytes) (n : Nat) (h0 : 0 < n) (hn : n ≤ 8) : ∀ (fuel : Nat) (out input : Bytes) (offset length : Nat),
    length < fuel → offset + length ≤ st.length → length ≤ input.length →
    ∃ k, k ≤ length ∧ outLanesLoop st (2 ^ n - 1) (8 * n) fuel out input offset length = some (Taken st out input offset length k) := by
  intro fuel
  induction fuel with
  | zero => intro out input offset length h; omega
  | succ fuel ih =>
    intro out input offset length hf h1 h2
    rw [outLanesLoop]
    simp only [Option.bind_eq_bind]
    by_cases hl : length ≥ 8 * n
    · obtain ⟨k, hk, e3⟩ := ih (out ++ outOf st input offset (8 * n)) (input.drop (8 * n)) (offset + 8 * n) (length - 8 * n)
        (by omega) (by omega) (by rw [List.length_drop]; omega)
      refine ⟨8 * n + k, by omega, ?_⟩
      have e4 := words_xor n hn st input offset
      change _ = outOf st input offset (8 * n) at e4
      rw [if_pos hl, load_ok n _ _ (by omega), Option.bind_some, load_ok n _ _ (by omega), Option.bind_some,
        maskBytes_eq n hn, e4, e3]
      unfold Taken
      rw [List.append_assoc, outOf_add, List.drop_drop, Nat.add_assoc, show length - 8 * n - k = length - (8 * n + k) by omega]
    · exact ⟨0, Nat.zero_le _, by rw [if_neg hl]; simp [Taken, outOf]⟩

theorem outTail_eq (st : Bytes) : ∀ (length : Nat) (out input : Bytes) (offset : Nat), offset + length ≤ st.length →
    length ≤ input.length → outTail st length out input offset = some (out ++ outOf st input offset length) := by
  intro length
  induction length with
  | zero => intro out input offset _ _; simp [outTail, outOf]
  | succ length ih =>
    intro out input offset h1 h2
    obtain ⟨e1, e2⟩ := take_one input (by omega)
    rw [outTail]
    simp only [Option.bind_eq_bind]
    rw [e1, Option.bind_some, List.getElem?_eq_getElem (show offset < st.length by omega),
      Option.bind_some, ← outOf_one st input offset (by omega) (by omega),
      ih _ _ _ (by omega) (by rw [List.length_drop]; omega), List.append_assoc, outOf_add, Nat.add_comm 1]

theorem outOf_eq (st input : Bytes) (o len : Nat) (h1 : o + len ≤ st.length) (h2 : len ≤ input.length) :
    outOf st input o len = Bytes.xor (input.take len) (Bytes.slice st o len) := by
  have hs := Bytes.xor_slice_spec st input o len h1 h2
  have hl : (outOf st input o len).length = len := by simp [outOf]
  apply List.ext_getElem?
  intro q
  by_cases hq : q < len
  · have e := hs.2 q hq
    rw [List.getD_eq_getElem?_getD, List.getElem?_eq_getElem (by omega), Option.getD_some] at e
    rw [List.getElem?_eq_getElem (show q < (Bytes.xor (input.take len) (Bytes.slice st o len)).length by omega), e]
    simp only [outOf, List.getElem?_map, List.getElem?_range hq, Option.map_some, Option.some.injEq]
    exact BitVec.xor_comm _ _
  · rw [List.getElem?_eq_none (by omega), List.getElem?_eq_none (by omega)]

theorem extractAndAddBytes_eq (st input : Bytes) (offset length : Nat) (h1 : offset + length ≤ st.length)
    (h2 : length ≤ input.length) :
    extractAndAddBytes st input offset length = some (Bytes.xor (input.take length) (Bytes.slice st offset length)) := by
  obtain ⟨a, ha, e1⟩ := outHead_eq st length [] input offset h1 h2
  obtain ⟨b, hb, e2⟩ := outLanesLoop_eq st 8 (by decide) (by decide) (length - a + 1) ([] ++ outOf st input offset a) (input.drop a)
    (offset + a) (length - a) (by omega) (by omega) (by rw [List.length_drop]; omega)
  obtain ⟨c, hc, e3⟩ := outLanesLoop_eq st 1 (by decide) (by decide) (length - a - b + 1)
    ([] ++ outOf st input offset a ++ outOf st (input.drop a) (offset + a) b) ((input.drop a).drop b)
    (offset + a + b) (length - a - b) (by omega) (by omega)
    (by rw [List.length_drop, List.length_drop]; omega)
  change outLanesLoop st 0xFF (8 * 8) _ _ _ _ _ = _ at e2
  change outLanesLoop st 0x01 8 _ _ _ _ _ = _ at e3
  unfold Taken at e1 e2 e3
  unfold extractAndAddBytes
  simp only [Option.bind_eq_bind]
  rw [e1, Option.bind_some]
  simp only []
  rw [e2, Option.bind_some]
  simp only []
  rw [e3, Option.bind_some]
  simp only []
  rw [List.nil_append, outOf_add, List.drop_drop, Nat.add_assoc offset a b, outOf_add, List.drop_drop,
    Nat.add_assoc offset (a + b) c,
    outTail_eq st _ _ _ _ (by omega) (by rw [List.length_drop]; omega), outOf_add, show a + b + c + (length - a - b - c) = length by omega,
    outOf_eq _ _ _ _ h1 h2]

/-! ### Fast absorption -/

theorem fastLoop_eq (permute : Bytes → Option Bytes) (f : Bytes → Bytes) (hp : ∀ s : Bytes, s.length = 200 → permute s = some (f s))
    (hlen : ∀ s : Bytes, s.length = 200 → (f s).length = 200) (blk : Nat) (h0 : 0 < blk) (hb : blk ≤ 200) :
    ∀ (fuel : Nat) (st data : Bytes), data.length < fuel → st.length = 200 →
      fastLoop permute blk fuel st data data.length =
        some (SnP.absorbBlocks f blk (data.length / blk) st data, data.length % blk) := by
  intro fuel
  induction fuel with
  | zero => intro st data h; omega
  | succ fuel ih =>
    intro st data h hs
    rw [fastLoop]
    simp only [Option.bind_eq_bind]
    by_cases hl : data.length ≥ blk
    · have hx : (Bytes.xorAt st 0 (data.take blk)).length = 200 := by simpa using hs
      have hd : data.length - blk = (data.drop blk).length := by rw [List.length_drop]
      rw [if_pos hl, addBytes_eq _ _ _ _ (by omega) hl, Option.bind_some, hp _ hx, Option.bind_some, hd,
        ih _ _ (by rw [List.length_drop]; omega) (hlen _ hx), List.length_drop, Nat.div_eq_sub_div h0 hl, Nat.mod_eq_sub_mod hl,
        SnP.absorbBlocks]
    · rw [if_neg hl, Nat.div_eq_of_lt (by omega), Nat.mod_eq_of_lt (by omega), SnP.absorbBlocks]

theorem addInput21_eq (p : Planes) (data : Bytes) (pos : Nat) (h : pos + 168 ≤ data.length) :
    ∃ p', addInput21 p data pos = some p' ∧
      bytesOfLanes (lanesOf p') = Bytes.xorAt (bytesOfLanes (lanesOf p)) 0 ((data.drop pos).take 168) := by
  have e : ∀ k, k ≤ 16 → maskzLoad 0x1F data (pos + 8 * k) =
      some fun i => if i.val < 5 then wordOfBytes (data.drop (pos + 8 * k + 8 * i.val)) else 0 := fun k hk =>
    load_ok 5 data (pos + 8 * k) (by omega)
  have e1 : maskzLoad 0x01 data (pos + 8 * 20) =
      some fun i => if i.val < 1 then wordOfBytes (data.drop (pos + 8 * 20 + 8 * i.val)) else 0 :=
    load_ok 1 data (pos + 8 * 20) (by omega)
  unfold addInput21
  rw [e 0 (by decide), e 5 (by decide), e 10 (by decide), e 15 (by decide), e1]
  refine ⟨_, rfl, ?_⟩
  have hl : ∀ i : Fin 25, lanesOf ⟨xor p.b fun i => if i.val < 5 then wordOfBytes (data.drop (pos + 8 * 0 + 8 * i.val)) else 0,
      xor p.g fun i => if i.val < 5 then wordOfBytes (data.drop (pos + 8 * 5 + 8 * i.val)) else 0,
      xor p.k fun i => if i.val < 5 then wordOfBytes (data.drop (pos + 8 * 10 + 8 * i.val)) else 0,
      xor p.m fun i => if i.val < 5 then wordOfBytes (data.drop (pos + 8 * 15 + 8 * i.val)) else 0,
      xor p.s fun i => if i.val < 1 then wordOfBytes (data.drop (pos + 8 * 20 + 8 * i.val)) else 0⟩ i =
      if i.val < 21 then lanesOf p i ^^^ wordOfBytes (data.drop (pos + 8 * i.val)) else lanesOf p i := by
    intro i
    fin_cases i <;> first | rfl | exact BitVec.xor_zero
  apply List.ext_getElem?
  intro j
  rw [Bytes.getElem?_xorAt, KeccakP1600.getElem?_bytesOfLanes, KeccakP1600.getElem?_bytesOfLanes]
  split
  · rw [hl]
    simp only [Option.map_some, Option.some.injEq]
    rw [if_pos (Nat.zero_le j), Nat.sub_zero, List.getD_eq_getElem?_getD, List.getElem?_take, List.getElem?_drop]
    by_cases hj : j / 8 < 21
    · rw [if_pos hj, if_pos (by omega), KeccakP1600.byteOf_xor, KeccakP1600.byteOf_wordOfBytes _ _ (by omega), List.getD_eq_getElem?_getD,
        List.getElem?_drop, show pos + 8 * (j / 8) + j % 8 = pos + j by omega]
    · rw [if_neg hj, if_neg (by omega)]
      exact BitVec.xor_zero.symm
  · rfl

theorem fastLoop21_eq (rounds : Planes → Option Planes) (f : Bytes → Bytes)
    (hr : ∀ p, ∃ p', rounds p = some p' ∧ bytesOfLanes (lanesOf p') = f (bytesOfLanes (lanesOf p))) (data : Bytes) :
    ∀ (fuel : Nat) (p : Planes) (pos len : Nat), len < fuel → pos + len = data.length →
      ∃ p', fastLoop21 rounds data fuel p pos len = some (p', len % 168) ∧
        bytesOfLanes (lanesOf p') = SnP.absorbBlocks f 168 (len / 168) (bytesOfLanes (lanesOf p)) (data.drop pos) := by
  intro fuel
  induction fuel with
  | zero => intro p pos len h; omega
  | succ fuel ih =>
    intro p pos len hf hp
    rw [fastLoop21]
    simp only [Option.bind_eq_bind]
    by_cases hl : len ≥ 21 * 8
    · obtain ⟨p1, e1, e2⟩ := addInput21_eq p data pos (by omega)
      obtain ⟨p2, e3, e4⟩ := hr p1
      obtain ⟨p3, e5, e6⟩ := ih p2 (pos + 21 * 8) (len - 21 * 8) (by omega) (by omega)
      refine ⟨p3, ?_, ?_⟩
      · rw [if_pos hl, e1, Option.bind_some, e3, Option.bind_some, e5, show (len - 21 * 8) % 168 = len % 168 by omega]
      · rw [e6, e4, e2, show len / 168 = (len - 21 * 8) / 168 + 1 by omega, SnP.absorbBlocks, List.drop_drop]
    · refine ⟨p, ?_, ?_⟩
      · rw [if_neg hl, Nat.mod_eq_of_lt (by omega)]
      · rw [Nat.div_eq_of_lt (by omega), SnP.absorbBlocks]

theorem fastLoopAbsorb_eq (rounds : Planes → Option Planes) (permute : Bytes → Option Bytes) (nr : Nat)
    (hr : ∀ p, ∃ p', rounds p = some p' ∧ lanesOf p' = KeccakP1600.Opt64.run (24 - nr) nr (lanesOf p))
    (hp : ∀ s : Bytes, s.length = 200 → permute s = some (KeccakP1600.Ref.permuteNrounds nr s))
    (st : Bytes) (hs : st.length = 200) (laneCount : Nat) (h0 : 0 < laneCount) (h25 : laneCount ≤ 25) (data : Bytes) :
    fastLoopAbsorb rounds permute st laneCount data =
      some (SnP.absorbBlocks (KeccakP1600.Ref.permuteNrounds nr) (laneCount * 8) (data.length / (laneCount * 8)) st data,
        data.length / (laneCount * 8) * (laneCount * 8)) := by
  have hlen : ∀ s : Bytes, (KeccakP1600.Ref.permuteNrounds nr s).length = 200 := fun s => KeccakP1600.length_bytesOfLanes _
  have e : data.length - data.length % (laneCount * 8) = data.length / (laneCount * 8) * (laneCount * 8) := by
    have := Nat.div_add_mod' data.length (laneCount * 8); omega
  unfold fastLoopAbsorb
  by_cases h21 : laneCount = 21
  · rw [if_pos h21]
    subst h21
    obtain ⟨p, e1, e2⟩ := copyFromState_eq st hs
    obtain ⟨p', e3, e4⟩ := fastLoop21_eq rounds (KeccakP1600.Ref.permuteNrounds nr) (fun p => by
      obtain ⟨p', h1, h2⟩ := hr p
      refine ⟨p', h1, ?_⟩
      rw [h2, KeccakP1600.Opt64.run_onWords, KeccakP1600.Ref.permuteNrounds, KeccakP1600.lanesOfBytes_bytesOfLanes]) data
      (data.length + 1) p 0 data.length (by omega) (by omega)
    simp only [Option.bind_eq_bind]
    rw [e1, Option.bind_some, e3, Option.bind_some]
    simp only []
    rw [copyToState_eq st hs, Option.bind_some, e4, e2, KeccakP1600.bytesOfLanes_lanesOfBytes st hs, List.drop_zero, ← e]
  · rw [if_neg h21, show laneCount * 8 % 2 ^ 32 = laneCount * 8 by omega,
      fastLoop_eq permute _ hp (fun s _ => hlen s) (laneCount * 8) (by omega) (by omega) _ st data (by omega) hs,
      Option.bind_eq_bind, Option.bind_some]
    simp only []
    rw [e]

end Plane512
