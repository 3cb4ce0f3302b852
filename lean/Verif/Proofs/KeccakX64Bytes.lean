import Verif.Proofs.KeccakX64Rounds
import Verif.Proofs.X86Bytes
import Verif.Spec.LaneComplement

/-!
Access to the bytes of the state in the x86-64 implementation in assembly.
-/

namespace X64Asm

open KeccakP1600 (Lane Lanes wordOfBytes bytesOfWord bytesOfLanes lanesOfBytes byteOf)
open X86

/-! ### The loops -/

theorem byteLoop_eq {σ : Type} (byte : σ → Option σ) (Inv : Nat → σ → Prop) (len : Nat) (hlen : len < 2 ^ 32)
    (h1 : ∀ k s, k + 1 ≤ len → Inv k s → ∃ s', byte s = some s' ∧ Inv (k + 1) s') :
    ∀ (n fuel k : Nat) (s : σ), n < fuel → k + (n + 1) = len → Inv k s → ∃ s', byteLoop byte fuel s (n + 1) = some s' ∧ Inv len s' := by
  intro n
  induction n with
  | zero =>
    intro fuel k s hf hk hi
    obtain ⟨fuel, rfl⟩ : ∃ f, fuel = f + 1 := ⟨fuel - 1, by omega⟩
    obtain ⟨s', e, hi'⟩ := h1 k s (by omega) hi
    refine ⟨s', ?_, hk ▸ hi'⟩
    rw [byteLoop, e]
    rfl
  | succ n ih =>
    intro fuel k s hf hk hi
    obtain ⟨fuel, rfl⟩ : ∃ f, fuel = f + 1 := ⟨fuel - 1, by omega⟩
    obtain ⟨s', e, hi'⟩ := h1 k s (by omega) hi
    obtain ⟨s2, e2, hi2⟩ := ih fuel (k + 1) s' (by omega) (by omega) hi'
    refine ⟨s2, ?_, hi2⟩
    rw [byteLoop, e, Option.bind_eq_bind, Option.bind_some, sub64_eq (by omega) (by omega)]
    show (if n + 1 ≠ 0 then _ else _) = _
    rw [if_pos (by omega)]
    exact e2

theorem lanesLoop_eq {σ : Type} (lane : σ → Option σ) (Inv : Nat → σ → Prop) (len : Nat) (hlen : len < 2 ^ 32)
    (h8 : ∀ k s, k + 8 ≤ len → Inv k s → ∃ s', lane s = some s' ∧ Inv (k + 8) s') :
    ∀ (fuel n k : Nat) (s : σ), n < fuel → k + 8 + n = len → Inv k s →
      ∃ s', lanesLoop lane fuel s n = some (s', sub64 (n % 8) 8) ∧ Inv (len - n % 8) s' := by
  intro fuel
  induction fuel with
  | zero => intro n k s hf; omega
  | succ fuel ih =>
    intro n k s hf hk hi
    obtain ⟨s', e, hi'⟩ := h8 k s (by omega) hi
    by_cases hn : n < 8
    · refine ⟨s', ?_, ?_⟩
      · rw [lanesLoop, e, Option.bind_eq_bind, Option.bind_some, if_pos hn, Nat.mod_eq_of_lt hn]
      · rw [Nat.mod_eq_of_lt hn, ← hk, Nat.add_sub_cancel]; exact hi'
    · obtain ⟨s2, e2, hi2⟩ := ih (n - 8) (k + 8) s' (by omega) (by omega) hi'
      have hm : (n - 8) % 8 = n % 8 := by omega
      rw [hm] at e2 hi2
      refine ⟨s2, ?_, hi2⟩
      rw [lanesLoop, e, Option.bind_eq_bind, Option.bind_some, if_neg hn, sub64_eq (by omega) (by omega)]
      exact e2

/-- An invariant that the two bodies preserve holds at the end. -/
theorem lanesThenBytes_eq {σ : Type} (lane byte : σ → Option σ) (Inv : Nat → σ → Prop) (len : Nat) (hlen : len < 2 ^ 32)
    (h8 : ∀ k s, k + 8 ≤ len → Inv k s → ∃ s', lane s = some s' ∧ Inv (k + 8) s')
    (h1 : ∀ k s, k + 1 ≤ len → Inv k s → ∃ s', byte s = some s' ∧ Inv (k + 1) s') (s : σ) (h0 : Inv 0 s) :
    ∃ s', lanesThenBytes lane byte s len = some s' ∧ Inv len s' := by
  have first : ∃ s', lanesPart lane s len = some (s', sub64 (len % 8) 8) ∧
      Inv (len - len % 8) s' := by
    unfold lanesPart
    by_cases h : len < 8
    · refine ⟨s, ?_, ?_⟩
      · rw [if_pos h, Nat.mod_eq_of_lt h]
      · rw [Nat.mod_eq_of_lt h, Nat.sub_self]; exact h0
    · rw [if_neg h, sub64_eq (by omega) (by omega)]
      obtain ⟨s', e, hi⟩ := lanesLoop_eq lane Inv len hlen h8 (2 ^ 32) (len - 8) 0 s (by omega) (by omega) h0
      rw [show (len - 8) % 8 = len % 8 by omega] at e hi
      exact ⟨s', e, hi⟩
  obtain ⟨s', e, hi⟩ := first
  unfold lanesThenBytes
  rw [e, Option.bind_eq_bind, Option.bind_some]
  dsimp only
  rw [add_sub64 (by omega) (by omega)]
  by_cases hz : len % 8 = 0
  · rw [if_pos hz]
    rw [hz, Nat.sub_zero] at hi
    exact ⟨s', rfl, hi⟩
  · rw [if_neg hz]
    obtain ⟨n, hn⟩ : ∃ n, len % 8 = n + 1 := ⟨len % 8 - 1, by omega⟩
    rw [hn] at hi ⊢
    exact byteLoop_eq byte Inv len hlen h1 n (2 ^ 32) (len - (n + 1)) s' (by omega) (by omega) hi

/-! ### Tables of bytes -/

/-- The bytes `f 0 ... f (n - 1)`. -/
def tab (f : Nat → Byte) (n : Nat) : Bytes := (List.range n).map f

theorem length_tab (f : Nat → Byte) (n : Nat) : (tab f n).length = n := by simp [tab]

theorem getD_tab (f : Nat → Byte) (n j : Nat) (h : j < n) : (tab f n).getD j 0 = f j := by
  rw [tab, List.getD_eq_getElem?_getD, List.getElem?_map, List.getElem?_range h]; rfl

theorem tab_zero (f : Nat → Byte) : tab f 0 = [] := rfl

theorem tab_succ (f : Nat → Byte) (n : Nat) : tab f (n + 1) = tab f n ++ [f n] := by
  rw [tab, List.range_succ, List.map_append]; rfl

theorem tab_word (f : Nat → Byte) (n : Nat) (w : Lane) (h : ∀ j, j < 8 → byteOf w j = f (n + j)) : tab f (n + 8) = tab f n ++ bytesOfWord w := by
  rw [tab, List.range_add, List.map_append, List.map_map]
  congr 1
  apply ext_getD (by rw [KeccakP1600.length_bytesOfWord]; simp)
  intro j hj
  have hj : j < 8 := by simpa using hj
  rw [getD_bytesOfWord _ _ hj, h j hj, List.getD_eq_getElem?_getD, List.getElem?_map, List.getElem?_range hj]
  rfl

theorem length_table : tableBytes.length = 200 := by decide +kernel

/-- The table complements the bytes of six lanes. -/
theorem table_get : ∀ j : Fin 200, tableBytes.getD j.val 0 = if j.val / 8 ∈ [1, 2, 8, 12, 17, 20] then 0xFF else 0 := by decide +kernel

/-! ### The functions with the table -/

theorem wr8_set (m : Bytes) (a : Nat) (b : Byte) (h : a < m.length) : wr8 m a b = some (Bytes.setAt m a [b]) := wr8_ok .mov m a b h

/-- The bytes that `OverwriteBytes` writes. -/
def owF (data : Bytes) (o : Nat) (q : Nat) : Byte := data.getD q 0 ^^^ tableBytes.getD (o + q) 0

theorem overwriteBytes_eq (st data : Bytes) (hs : st.length = 200) (o len : Nat) (h : o + len ≤ 200) (hd : len ≤ data.length) :
    overwriteBytes st data o len = some (Bytes.setAt st o (tab (owF data o) len)) := by
  have ht := length_table
  obtain ⟨s', e, hi⟩ := lanesThenBytes_eq (overwriteLane data) (overwriteByte data)
    (fun k s => s.arg2 = k ∧ s.arg5 = o + k ∧ s.arg1 = o + k ∧ s.st = Bytes.setAt st o (tab (owF data o) k)) len (by omega)
    (by
      rintro k ⟨s, _, _, _⟩ hk ⟨e1, e2, e3, e4⟩
      dsimp only at e1 e2 e3 e4 ⊢
      subst e1 e2 e3 e4
      unfold overwriteLane
      dsimp only
      rw [rd64_ok _ _ (by omega), rd64_ok _ _ (by rw [ht]; omega)]
      simp only [Option.bind_eq_bind, Option.bind_some]
      rw [wr64_ok _ _ _ (by rw [Bytes.length_setAt, hs]; omega)]
      refine ⟨_, rfl, rfl, rfl, rfl, ?_⟩
      dsimp only
      rename_i k
      have tw := tab_word (owF data o) k (wordOfBytes (data.drop k) ^^^ wordOfBytes (tableBytes.drop (o + k))) (fun j hj => by
        rw [KeccakP1600.byteOf_xor, byteOf_drop _ _ _ hj, byteOf_drop _ _ _ hj, owF, Nat.add_assoc])
      rw [tw, ← Bytes.setAt_append, length_tab])
    (by
      rintro k ⟨s, _, _, _⟩ hk ⟨e1, e2, e3, e4⟩
      dsimp only at e1 e2 e3 e4 ⊢
      subst e1 e2 e3 e4
      unfold overwriteByte
      dsimp only
      rw [rd8_ok _ _ (by omega), rd8_ok _ _ (by rw [ht]; omega)]
      simp only [Option.bind_eq_bind, Option.bind_some]
      rw [wr8_set _ _ _ (by rw [Bytes.length_setAt, hs]; omega)]
      refine ⟨_, rfl, rfl, rfl, rfl, ?_⟩
      dsimp only
      rw [tab_succ, ← Bytes.setAt_append, length_tab]
      rfl)
    ⟨st, 0, o, o⟩ ⟨rfl, rfl, rfl, by rw [tab_zero, Bytes.setAt_nil]⟩
  rw [overwriteBytes, e, Option.bind_eq_bind, Option.bind_some, hi.2.2.2]

theorem overwriteWithZeroes_eq (st : Bytes) (hs : st.length = 200) (len : Nat) (h : len ≤ 200) :
    overwriteWithZeroes st len = some (Bytes.setAt st 0 (tab (fun q => tableBytes.getD q 0) len)) := by
  have ht := length_table
  have z8 : ∀ b : Byte, 0 ^^^ b = b := fun b => BitVec.zero_xor
  have z64 : ∀ w : Lane, 0 ^^^ w = w := fun w => BitVec.zero_xor
  obtain ⟨s', e, hi⟩ := lanesThenBytes_eq zeroLane zeroByte
    (fun k s => s.arg5 = k ∧ s.arg1 = k ∧ s.st = Bytes.setAt st 0 (tab (fun q => tableBytes.getD q 0) k)) len (by omega)
    (by
      rintro k ⟨s, _, _⟩ hk ⟨e1, e3, e4⟩
      dsimp only at e1 e3 e4 ⊢
      subst e1 e3 e4
      unfold zeroLane
      dsimp only
      rw [rd64_ok _ _ (by rw [ht]; omega)]
      simp only [Option.bind_eq_bind, Option.bind_some]
      rw [wr64_ok _ _ _ (by rw [Bytes.length_setAt, hs]; omega), z64]
      refine ⟨_, rfl, rfl, rfl, ?_⟩
      dsimp only
      rw [tab_word _ _ (wordOfBytes (tableBytes.drop _)) (fun j hj => byteOf_drop _ _ _ hj), ← Bytes.setAt_append, length_tab, Nat.zero_add])
    (by
      rintro k ⟨s, _, _⟩ hk ⟨e1, e3, e4⟩
      dsimp only at e1 e3 e4 ⊢
      subst e1 e3 e4
      unfold zeroByte
      dsimp only
      rw [rd8_ok _ _ (by rw [ht]; omega)]
      simp only [Option.bind_eq_bind, Option.bind_some]
      rw [wr8_set _ _ _ (by rw [Bytes.length_setAt, hs]; omega), z8]
      refine ⟨_, rfl, rfl, rfl, ?_⟩
      dsimp only
      rw [tab_succ, ← Bytes.setAt_append, length_tab, Nat.zero_add])
    ⟨st, 0, 0⟩ ⟨rfl, rfl, by rw [tab_zero, Bytes.setAt_nil]⟩
  rw [overwriteWithZeroes, e, Option.bind_eq_bind, Option.bind_some, hi.2.2]

/-- A byte of the state that the memory stands for. -/
def exF (st : Bytes) (o : Nat) (q : Nat) : Byte := st.getD (o + q) 0 ^^^ tableBytes.getD (o + q) 0

theorem extractBytes_eq (st : Bytes) (hs : st.length = 200) (o len : Nat) (h : o + len ≤ 200) :
    extractBytes st o len = some (tab (exF st o) len) := by
  have ht := length_table
  obtain ⟨s', e, hi⟩ := lanesThenBytes_eq (extractLane st) (extractByte st)
    (fun k s => s.arg5 = o + k ∧ s.arg1 = o + k ∧ s.out = tab (exF st o) k) len (by omega)
    (by
      rintro k ⟨s, _, _⟩ hk ⟨e1, e3, e4⟩
      dsimp only at e1 e3 e4 ⊢
      subst e1 e3 e4
      unfold extractLane
      dsimp only
      rw [rd64_ok _ _ (by omega), rd64_ok _ _ (by rw [ht]; omega)]
      refine ⟨_, rfl, rfl, rfl, ?_⟩
      dsimp only
      exact (tab_word (exF st o) _ _ (fun j hj => by
        rw [KeccakP1600.byteOf_xor, byteOf_drop _ _ _ hj, byteOf_drop _ _ _ hj, exF, Nat.add_assoc])).symm)
    (by
      rintro k ⟨s, _, _⟩ hk ⟨e1, e3, e4⟩
      dsimp only at e1 e3 e4 ⊢
      subst e1 e3 e4
      unfold extractByte
      dsimp only
      rw [rd8_ok _ _ (by omega), rd8_ok _ _ (by rw [ht]; omega)]
      refine ⟨_, rfl, rfl, rfl, ?_⟩
      dsimp only
      rw [tab_succ]; rfl)
    ⟨[], o, o⟩ ⟨rfl, rfl, rfl⟩
  rw [extractBytes, e, Option.bind_eq_bind, Option.bind_some, hi.2.2]

theorem extractAndAddBytes_eq (st input : Bytes) (hs : st.length = 200) (o len : Nat) (h : o + len ≤ 200) (hd : len ≤ input.length) :
    extractAndAddBytes st input o len = some (tab (fun q => exF st o q ^^^ input.getD q 0) len) := by
  have ht := length_table
  obtain ⟨s', e, hi⟩ := lanesThenBytes_eq (extractAddLane st input) (extractAddByte st input)
    (fun k s => s.arg2 = k ∧ s.arg6 = o + k ∧ s.arg1 = o + k ∧ s.out = tab (fun q => exF st o q ^^^ input.getD q 0) k) len (by omega)
    (by
      rintro k ⟨s, _, _, _⟩ hk ⟨e1, e2, e3, e4⟩
      dsimp only at e1 e2 e3 e4 ⊢
      subst e1 e2 e3 e4
      unfold extractAddLane
      dsimp only
      rw [rd64_ok _ _ (by omega), rd64_ok _ _ (by rw [ht]; omega), rd64_ok _ _ (by omega)]
      refine ⟨_, rfl, rfl, rfl, rfl, ?_⟩
      dsimp only
      exact (tab_word _ _ _ (fun j hj => by
        rw [KeccakP1600.byteOf_xor, KeccakP1600.byteOf_xor, byteOf_drop _ _ _ hj, byteOf_drop _ _ _ hj, byteOf_drop _ _ _ hj, exF, Nat.add_assoc])).symm)
    (by
      rintro k ⟨s, _, _, _⟩ hk ⟨e1, e2, e3, e4⟩
      dsimp only at e1 e2 e3 e4 ⊢
      subst e1 e2 e3 e4
      unfold extractAddByte
      dsimp only
      rw [rd8_ok _ _ (by omega), rd8_ok _ _ (by rw [ht]; omega), rd8_ok _ _ (by omega)]
      refine ⟨_, rfl, rfl, rfl, rfl, ?_⟩
      dsimp only
      rw [tab_succ]; rfl)
    ⟨[], 0, o, o⟩ ⟨rfl, rfl, rfl, rfl⟩
  rw [extractAndAddBytes, e, Option.bind_eq_bind, Option.bind_some, hi.2.2.2]

/-! ### `AddBytes` -/

theorem xorMem_eq (st data : Bytes) (a i : Nat) (h : a + 8 ≤ st.length) (hd : i + 8 ≤ data.length) :
    xorMem st a (wordOfBytes (data.drop i)) = some (Bytes.xorAt st a (Bytes.slice data i 8)) := by
  rw [xorMem, rd64_ok _ _ h]
  exact wr64_op .xor st data a i h hd

theorem xorAt_slice (st data : Bytes) (a i m n : Nat) (h : i + m ≤ data.length) :
    Bytes.xorAt (Bytes.xorAt st a (Bytes.slice data i m)) (a + m) (Bytes.slice data (i + m) n) = Bytes.xorAt st a (Bytes.slice data i (m + n)) := by
  have e := Bytes.length_slice_of_le h
  conv_lhs => rw [show a + m = a + (Bytes.slice data i m).length by rw [e]]
  rw [Bytes.xorAt_append, Relaned.slice_append]

/-- The addition of `n` bytes. -/
def Adds (n : Nat) (f : Bytes → Nat → Bytes → Nat → Nat → Option Bytes) : Prop :=
  ∀ (data : Bytes) (i : Nat) (st : Bytes) (a o : Nat), i + o + n ≤ data.length → a + o + n ≤ st.length →
    f data i st a o = some (Bytes.xorAt st (a + o) (Bytes.slice data (i + o) n))

theorem adds_two {m n : Nat} {f g : Bytes → Nat → Bytes → Nat → Nat → Option Bytes} (hf : Adds m f) (hg : Adds n g) :
    Adds (m + n) fun data i st a o => (f data i st a o).bind fun st => g data i st a (o + m) := by
  intro data i st a o hd hs
  show (f data i st a o).bind _ = _
  rw [hf data i st a o (by omega) (by omega), Option.bind_some, hg data i _ a (o + m) (by omega) (by rw [Bytes.length_xorAt]; omega),
    ← Nat.add_assoc, ← Nat.add_assoc, xorAt_slice _ _ _ _ _ _ (by omega)]

theorem lane_adds : Adds 8 fun data i st a o => (rd64 data (i + o)).bind fun w => xorMem st (a + o) w := by
  intro data i st a o hd hs
  show (rd64 data (i + o)).bind _ = _
  rw [rd64_ok _ _ hd, Option.bind_some, xorMem_eq _ _ _ _ hs hd]

theorem xorXmm_adds : Adds 16 xorXmm := by
  intro data i st a o hd hs
  rw [xorXmm, rd64_ok _ _ (by omega), rd64_ok _ _ (by omega), rd64_ok _ _ (by omega), rd64_ok _ _ (by omega)]
  simp only [Option.bind_eq_bind, Option.bind_some]
  have e1 := wr64_op .xor st data (a + o) (i + o) (by omega) (by omega)
  have hl : (opAt .xor st (a + o) (Bytes.slice data (i + o) 8)).length = st.length := Bytes.length_xorAt _ _ _
  have e2 := wr64_op .xor (opAt .xor st (a + o) (Bytes.slice data (i + o) 8)) data (a + o + 8) (i + o + 8) (by omega) (by omega)
  have ew : wordOfBytes ((opAt .xor st (a + o) (Bytes.slice data (i + o) 8)).drop (a + o + 8)) = wordOfBytes (st.drop (a + o + 8)) := by
    congr 1
    apply List.ext_getElem?
    intro k
    rw [List.getElem?_drop, List.getElem?_drop]
    show (Bytes.xorAt st (a + o) (Bytes.slice data (i + o) 8))[a + o + 8 + k]? = _
    rw [Bytes.getElem?_xorAt, if_pos (by omega), List.getD_eq_getElem?_getD,
      List.getElem?_eq_none (by rw [Bytes.length_slice_of_le (by omega)]; omega)]
    simp
  rw [ew] at e2
  rw [store128, BitVec.xor_comm (wordOfBytes (data.drop (i + o))), BitVec.xor_comm (wordOfBytes (data.drop (i + o + 8)))]
  simp only [Op.on] at e1 e2
  rw [e1, Option.bind_eq_bind, Option.bind_some, e2]
  exact congrArg some (xorAt_slice st data (a + o) (i + o) 8 8 (by omega))

theorem mXor128_adds (v : Variant) : Adds 16 (mXor128 v) := by
  intro data i st a o hd hs
  unfold mXor128
  by_cases h : v.simd
  · rw [if_pos h]; exact xorXmm_adds data i st a o hd hs
  · rw [if_neg h]
    refine Eq.trans ?_ (adds_two lane_adds lane_adds data i st a o hd hs)
    simp only [Option.bind_eq_bind]
    rw [rd64_ok _ _ (show i + o + 8 ≤ _ by omega), rd64_ok _ _ (show i + (o + 8) + 8 ≤ _ by omega)]
    simp only [Option.bind_some]

theorem mXor256_adds (v : Variant) : Adds 32 (mXor256 v) := by
  intro data i st a o hd hs
  unfold mXor256
  by_cases h : v.simd
  · rw [if_pos h]; exact adds_two xorXmm_adds xorXmm_adds data i st a o hd hs
  · rw [if_neg h]
    refine Eq.trans ?_ (adds_two (adds_two (adds_two lane_adds lane_adds) lane_adds) lane_adds data i st a o hd hs)
    simp only [Option.bind_eq_bind]
    rw [rd64_ok _ _ (show i + o + 8 ≤ _ by omega), rd64_ok _ _ (show i + (o + 8) + 8 ≤ _ by omega),
      rd64_ok _ _ (show i + (o + 16) + 8 ≤ _ by omega), rd64_ok _ _ (show i + (o + 24) + 8 ≤ _ by omega)]
    simp only [Option.bind_some, Option.bind_assoc]

theorem mXor512_adds (v : Variant) : Adds 64 (mXor512 v) := by
  intro data i st a o hd hs
  unfold mXor512
  by_cases h : v.simd
  · rw [if_pos h]
    refine Eq.trans ?_ (adds_two (adds_two (adds_two xorXmm_adds xorXmm_adds) xorXmm_adds) xorXmm_adds data i st a o hd hs)
    simp only [Option.bind_eq_bind, Option.bind_assoc]
  · rw [if_neg h]; exact adds_two (mXor256_adds v) (mXor256_adds v) data i st a o hd hs

/-- The addition of `n` bytes, which moves the pointers on. -/
def Moves (data : Bytes) (n : Nat) (f : P → Option P) : Prop :=
  ∀ (st : Bytes) (i a : Nat), i + n ≤ data.length → a + n ≤ st.length → f (st, i, a) = some (Bytes.xorAt st a (Bytes.slice data i n), i + n, a + n)

theorem moves_zero (data : Bytes) : Moves data 0 some := by
  intro st i a _ _
  rw [show Bytes.slice data i 0 = [] by simp [Bytes.slice], Bytes.xorAt_nil]; rfl

theorem moves_two {data : Bytes} {m n : Nat} {f g : P → Option P} (hf : Moves data m f) (hg : Moves data n g) :
    Moves data (m + n) fun p => (f p).bind g := by
  intro st i a hd hs
  show (f (st, i, a)).bind g = _
  rw [hf st i a (by omega) (by omega), Option.bind_some, hg _ _ _ (by omega) (by rw [Bytes.length_xorAt]; omega), xorAt_slice _ _ _ _ _ _ (by omega),
    Nat.add_assoc, Nat.add_assoc]

theorem moves_of_adds {n : Nat} {f : Bytes → Nat → Bytes → Nat → Nat → Option Bytes} (hf : Adds n f) (data : Bytes) :
    Moves data n fun p => (f data p.2.1 p.1 p.2.2 0).bind fun st => some (st, p.2.1 + n, p.2.2 + n) := by
  intro st i a hd hs
  show (f data i st a 0).bind _ = _
  rw [hf data i st a 0 hd hs]; rfl

theorem add16_moves (v : Variant) (data : Bytes) : Moves data 128 (add16 v data) := by
  intro st i a hd hs
  refine Eq.trans ?_ (moves_of_adds (adds_two (mXor512_adds v) (mXor512_adds v)) data st i a hd hs)
  simp only [add16, Option.bind_eq_bind, Option.bind_assoc, Nat.zero_add]

theorem add8_moves (v : Variant) (data : Bytes) : Moves data 64 (add8 v data) := moves_of_adds (mXor512_adds v) data

theorem add4_moves (v : Variant) (data : Bytes) : Moves data 32 (add4 v data) := moves_of_adds (mXor256_adds v) data

theorem add2_moves (v : Variant) (data : Bytes) : Moves data 16 (add2 v data) := moves_of_adds (mXor128_adds v) data

theorem add1_moves (data : Bytes) : Moves data 8 (add1 data) := by
  intro st i a hd hs
  refine Eq.trans ?_ (moves_of_adds lane_adds data st i a hd hs)
  simp only [add1, Option.bind_eq_bind, Option.bind_assoc, Nat.add_zero]

/-- `n` if the bit is set. -/
def sel (bit arg6 n : Nat) : Nat := if arg6 &&& bit ≠ 0 then n else 0

theorem onBit_moves {data : Bytes} {n : Nat} {f : P → Option P} (h : Moves data n f) (bit arg6 : Nat) : Moves data (sel bit arg6 n) (onBit bit arg6 f) := by
  unfold sel
  by_cases hb : arg6 &&& bit ≠ 0
  · rw [if_pos hb]; intro st i a; rw [onBit, if_pos hb]; exact h st i a
  · rw [if_neg hb]; intro st i a; rw [onBit, if_neg hb]; exact moves_zero data st i a

theorem sel_sum : ∀ n : Fin 32, sel 16 n.val 128 + sel 8 n.val 64 + sel 4 n.val 32 + sel 2 n.val 16 + sel 1 n.val 8 = 8 * n.val := by decide

theorem and_F8 : ∀ n : Fin 256, n.val &&& 0xF8 = 8 * (n.val / 8) := by decide +kernel

theorem addLanes_moves (v : Variant) (data : Bytes) (len : Nat) (h : len < 256) : Moves data (8 * (len / 8)) (addLanes v data len) := by
  have hF := and_F8 ⟨len, h⟩
  dsimp only at hF
  intro st i a hd hs
  unfold addLanes
  by_cases hz : len &&& 0xF8 = 0
  · rw [if_pos hz]
    rw [show 8 * (len / 8) = 0 by omega] at hd hs ⊢
    exact moves_zero data st i a hd hs
  · rw [if_neg hz]
    have e := sel_sum ⟨len / 8, by omega⟩
    dsimp only at e
    rw [← e] at hd hs ⊢
    refine Eq.trans ?_ (moves_two (moves_two (moves_two (moves_two (onBit_moves (add16_moves v data) 16 (len / 8)) (onBit_moves (add8_moves v data) 8 (len / 8)))
      (onBit_moves (add4_moves v data) 4 (len / 8))) (onBit_moves (add2_moves v data) 2 (len / 8))) (onBit_moves (add1_moves data) 1 (len / 8)) st i a hd hs)
    simp only [Option.bind_eq_bind, Option.bind_assoc, show (2 : Nat) ^ 3 = 8 from rfl]

theorem addBytesP_eq (v : Variant) (st data : Bytes) (i o len : Nat) (hs : st.length = 200) (h : o + len ≤ 200) (hd : i + len ≤ data.length) :
    addBytesP v st data i o len = some (Bytes.xorAt st o (Bytes.slice data i len), i + len, o + len) := by
  have h7 : len &&& 7 = len % 8 := Nat.and_two_pow_sub_one_eq_mod len 3
  unfold addBytesP
  rw [addLanes_moves v data len (by omega) st i o (by omega) (by omega)]
  simp only [Option.bind_eq_bind, Option.bind_some]
  rw [h7]
  by_cases hz : len % 8 = 0
  · rw [if_pos hz, show 8 * (len / 8) = len by omega]
  · rw [if_neg hz]
    obtain ⟨n, hn⟩ : ∃ n, len % 8 = n + 1 := ⟨len % 8 - 1, by omega⟩
    rw [hn, bytesLoop_eq .xor data n 8 _ _ _ (by omega) (by omega) (by omega) (by rw [Bytes.length_xorAt]; omega)]
    show some (Bytes.xorAt _ _ _, _, _) = _
    rw [xorAt_slice _ _ _ _ _ _ (by omega), Nat.add_assoc, Nat.add_assoc, show 8 * (len / 8) + (n + 1) = len by omega]

theorem addBytes_eq (v : Variant) (st data : Bytes) (o len : Nat) (hs : st.length = 200) (h : o + len ≤ 200) (hd : len ≤ data.length) :
    addBytes v st data o len = some (Bytes.xorAt st o (data.take len)) := by
  rw [addBytes, addBytesP_eq v st data 0 o len hs h (by omega), Option.bind_eq_bind, Option.bind_some]
  rfl

theorem addByteMacro_eq (st : Bytes) (b : Byte) (o : Nat) (h : o < st.length) : addByteMacro st b o = some (Bytes.xorAt st o [b]) := by
  rw [addByteMacro, rd8_ok _ _ h]
  exact wr8_ok .xor st o b h

theorem addByte_eq (st : Bytes) (data : Lane) (o : Nat) (h : o < st.length) : addByte st data o = some (Bytes.xorAt st o [data.setWidth 8]) := by
  rw [addByte, rd8_ok _ _ h]
  exact wr8_ok .xor st o _ h

/-! ### `Initialize` -/

theorem wrL (st : Bytes) (hs : st.length = 200) (l : List Lane) (a : Nat) (w : Lane) (hl : l.length < 25) (ha : a = l.length * 8) :
    wr64 (Bytes.setAt st 0 (l.flatMap bytesOfWord)) a w = some (Bytes.setAt st 0 ((l ++ [w]).flatMap bytesOfWord)) := by
  have e : (l.flatMap bytesOfWord).length = l.length * 8 := by
    clear hl ha
    induction l with
    | nil => rfl
    | cons x l ih => rw [List.flatMap_cons, List.length_append, ih, KeccakP1600.length_bytesOfWord, List.length_cons]; omega
  rw [wr64_ok _ _ _ (by rw [Bytes.length_setAt, hs]; omega), List.flatMap_append, ← Bytes.setAt_append, e, ha, Nat.zero_add]
  simp

theorem init_eq (v : Variant) (st : Bytes) (hs : st.length = 200) : init v st = some tableBytes := by
  have full : ∀ l : List Lane, l.flatMap bytesOfWord = tableBytes → some (Bytes.setAt st 0 (l.flatMap bytesOfWord)) = some tableBytes := by
    intro l hl
    rw [hl]
    congr 1
    apply ext_getD (by rw [Bytes.length_setAt, hs, length_table])
    intro j hj
    rw [Bytes.length_setAt, hs] at hj
    rw [Bytes.getD_setAt _ _ _ _ (by omega), if_pos ⟨by omega, by rw [length_table]; omega⟩, Nat.sub_zero]
  have e0 : st = Bytes.setAt st 0 (([] : List Lane).flatMap bytesOfWord) := (Bytes.setAt_nil _ _).symm
  have p : initPlain st = some tableBytes := by
    conv_lhs => rw [e0]
    unfold initPlain
    simp only [Option.bind_eq_bind]
    repeat rw [wrL st hs, Option.bind_some]
    · refine full _ ?_
      decide +kernel
    all_goals decide
  have q : initSimd st = some tableBytes := by
    conv_lhs => rw [e0]
    unfold initSimd store128
    simp only [Option.bind_eq_bind, Option.bind_assoc]
    repeat rw [wrL st hs, Option.bind_some]
    · refine full _ ?_
      decide +kernel
    all_goals decide
  unfold init
  split
  · exact q
  · exact p

end X64Asm
