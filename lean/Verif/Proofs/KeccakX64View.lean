import Verif.Proofs.KeccakX64Bytes
import Verif.Props.KeccakPOpt

/-!
What the x86-64 implementation in assembly does to the state that the bytes in memory stand for.
-/

namespace X64Asm

open KeccakP1600 (Lane Lanes wordOfBytes bytesOfWord bytesOfLanes lanesOfBytes byteOf)
open KeccakP1600.Opt64 (V copyToState copyFromState rep run plain view uncB)
open Spec (laneComplement withTrailer)
open X86

theorem laneComplement_uncB (s : Bytes) : laneComplement s = uncB lc s := by
  unfold laneComplement uncB
  congr 1
  funext j b
  rw [KeccakP1600.Opt64.isComp_lc rfl]
  simp [or_assoc]

theorem length_lc (s : Bytes) : (laneComplement s).length = s.length := by simp [laneComplement]

theorem lc_bytesOfLanes (A : Lanes) : laneComplement (bytesOfLanes A) = view lc A := by
  rw [laneComplement_uncB, KeccakP1600.Opt64.view_uncB]

theorem lc_view (s : Bytes) (hs : s.length = 200) : laneComplement s = view lc (lanesOfBytes s) := by
  rw [← lc_bytesOfLanes, KeccakP1600.bytesOfLanes_lanesOfBytes s hs]

theorem lc_xorAt (s : Bytes) (o : Nat) (d : Bytes) : laneComplement (Bytes.xorAt s o d) = Bytes.xorAt (laneComplement s) o d := by
  rw [laneComplement_uncB, laneComplement_uncB, KeccakP1600.Opt64.uncB_xorAt]

theorem getD_lc (s : Bytes) (hs : s.length = 200) (j : Nat) (hj : j < 200) : (laneComplement s).getD j 0 = s.getD j 0 ^^^ tableBytes.getD j 0 := by
  have h := table_get ⟨j, hj⟩
  dsimp only at h
  have hn : ∀ b : Byte, ~~~ b = b ^^^ 0xFF := by intro b; ext i hi; have : i < 8 := hi; interval_cases i <;> simp
  rw [h, laneComplement, List.getD_eq_getElem?_getD, List.getElem?_mapIdx, List.getD_eq_getElem?_getD, List.getElem?_eq_getElem (by omega)]
  simp only [Option.map_some, Option.getD_some]
  split
  · rw [hn]
  · exact BitVec.xor_zero.symm

theorem lc_setAt (s : Bytes) (hs : s.length = 200) (o n : Nat) (f : Nat → Byte) :
    laneComplement (Bytes.setAt s o (tab (fun q => f q ^^^ tableBytes.getD (o + q) 0) n)) = Bytes.setAt (laneComplement s) o (tab f n) := by
  have hl : (Bytes.setAt s o (tab (fun q => f q ^^^ tableBytes.getD (o + q) 0) n)).length = 200 := by rw [Bytes.length_setAt, hs]
  apply ext_getD (by rw [length_lc, hl, Bytes.length_setAt, length_lc, hs])
  intro j hj
  rw [length_lc, hl] at hj
  rw [getD_lc _ hl _ hj, Bytes.getD_setAt _ _ _ _ (by omega), Bytes.getD_setAt _ _ _ _ (by rw [length_lc]; omega), length_tab, length_tab, getD_lc _ hs _ hj]
  by_cases hc : o ≤ j ∧ j < o + n
  · rw [if_pos hc, if_pos hc, getD_tab _ _ _ (by omega), getD_tab _ _ _ (by omega), show o + (j - o) = j by omega, BitVec.xor_assoc, BitVec.xor_self,
      BitVec.xor_zero]
  · rw [if_neg hc, if_neg hc]

/-! ### The permutation -/

theorem length_storeV (A : V) : (storeV A).length = 200 := KeccakP1600.length_bytesOfLanes _

theorem loadV_eq (st : Bytes) (hs : st.length = 200) : loadV st = some (copyFromState (lanesOfBytes st)) := by rw [loadV, if_pos hs]

/-- The rounds from the line of `nr` rounds on. -/
theorem rounds_eq (v : Variant) (st : Bytes) (hs : st.length = 200) (nr : Nat) (h0 : 0 < nr) (hnr : nr ≤ 24) (m : M)
    (hm : m.src (24 - nr) = copyFromState (lanesOfBytes st)) (hr : m.r = prepare (copyFromState (lanesOfBytes st))) :
    laneComplement (storeV ((linesN.drop (24 - nr)).foldl (Line.exec v) m).state) = KeccakP1600.Ref.permuteNrounds nr (laneComplement st) := by
  obtain ⟨n, rfl⟩ : ∃ n, nr = n + 1 := ⟨nr - 1, by omega⟩
  rw [storeV, lc_bytesOfLanes, lc_view st hs]
  apply KeccakP1600.Opt64.view_of_rep
  apply exec_eq v n (by omega)
  · rw [hm, KeccakP1600.Opt64.rep_plain, KeccakP1600.Opt64.copyToState_copyFromState]
  · rw [hm, hr]; exact prepare_fits _

theorem permutation_eq (v : Variant) (junk : V) (st : Bytes) (hs : st.length = 200) (lines : List Line) (nr : Nat) (h0 : 0 < nr) (hnr : nr ≤ 24)
    (he : nr % 2 = 0) (hl : lines = linesN.drop (24 - nr)) :
    ∃ t, permutation v lines junk st = some t ∧ t.length = 200 ∧ laneComplement t = KeccakP1600.Ref.permuteNrounds nr (laneComplement st) := by
  rw [permutation, loadV_eq st hs, hl]
  refine ⟨_, rfl, length_storeV _, rounds_eq v st hs nr h0 hnr _ ?_ rfl⟩
  unfold M.src
  rw [if_pos (by omega)]

theorem permute24_eq (v : Variant) (junk : V) (st : Bytes) (hs : st.length = 200) :
    ∃ t, permute24 v junk st = some t ∧ t.length = 200 ∧ laneComplement t = KeccakP1600.Ref.permuteNrounds 24 (laneComplement st) :=
  permutation_eq v junk st hs lines24 24 (by decide) (by decide) rfl lines24_eq

theorem permute12_eq (v : Variant) (junk : V) (st : Bytes) (hs : st.length = 200) :
    ∃ t, permute12 v junk st = some t ∧ t.length = 200 ∧ laneComplement t = KeccakP1600.Ref.permuteNrounds 12 (laneComplement st) :=
  permutation_eq v junk st hs lines12 12 (by decide) (by decide) rfl lines12_eq

theorem permuteNrounds_eq (v : Variant) (junk : V) (st : Bytes) (hs : st.length = 200) (nr : Nat) (h0 : 0 < nr) (hnr : nr ≤ 24) :
    ∃ t, permuteNrounds v junk st nr = some t ∧ t.length = 200 ∧ laneComplement t = KeccakP1600.Ref.permuteNrounds nr (laneComplement st) := by
  have ht := table_eq ⟨nr - 1, by omega⟩
  dsimp only at ht
  have h1 : nr &&& 1 = nr % 2 := Nat.and_two_pow_sub_one_eq_mod nr 1
  rw [permuteNrounds, loadV_eq st hs, Option.bind_eq_bind, Option.bind_some]
  dsimp only
  rw [if_neg (by omega), show (nr * 2 ^ 3 - 8) / 8 = nr - 1 by omega, ht, Option.bind_eq_bind, Option.bind_some, show 23 - (nr - 1) = 24 - nr by omega]
  refine ⟨_, rfl, length_storeV _, rounds_eq v st hs nr h0 hnr _ ?_ ?_⟩
  · unfold M.src copyIfOdd
    rw [h1]
    by_cases ho : nr % 2 = 0
    · rw [if_pos (by omega), if_neg (by omega)]
    · rw [if_neg (by omega), if_pos ho]
  · unfold copyIfOdd
    split <;> rfl

/-! ### The fast loop -/

theorem xorMem_word (st : Bytes) (a : Nat) (w : Lane) (h : a + 8 ≤ st.length) : xorMem st a w = some (Bytes.xorAt st a (bytesOfWord w)) := by
  have := xorMem_eq st (bytesOfWord w) a 0 h (by rw [KeccakP1600.length_bytesOfWord])
  rw [List.drop_zero, KeccakP1600.wordOfBytes_bytesOfWord] at this
  rw [this]
  rfl

theorem addWords_eq (data : Bytes) (pos : Nat) : ∀ (n k : Nat) (st : Bytes), pos + (k + n) * 8 ≤ data.length → (k + n) * 8 ≤ st.length →
    addWords data pos (List.range' k n) st = some (Bytes.xorAt st (k * 8) (Bytes.slice data (pos + k * 8) (n * 8))) := by
  intro n
  induction n with
  | zero =>
    intro k st _ _
    rw [show Bytes.slice data (pos + k * 8) (0 * 8) = [] by simp [Bytes.slice], Bytes.xorAt_nil]; rfl
  | succ n ih =>
    intro k st hd hs
    rw [List.range'_succ, addWords, rd64_ok _ _ (by omega)]
    simp only [Option.bind_eq_bind, Option.bind_some]
    rw [xorMem_eq _ _ _ _ (by omega) (by omega), Option.bind_some, ih (k + 1) _ (by omega) (by rw [Bytes.length_xorAt]; omega),
      show (k + 1) * 8 = k * 8 + 8 by omega, ← Nat.add_assoc, xorAt_slice _ _ _ _ _ _ (by omega), show 8 + n * 8 = (n + 1) * 8 by omega]

/-- A block of `n` lanes at `pos`, and the trailing word. -/
def added (st data : Bytes) (pos n : Nat) (w : Lane) : Bytes := Bytes.xorAt st 0 (Bytes.slice data pos (n * 8) ++ bytesOfWord w)

theorem added_eq (st data : Bytes) (pos n : Nat) (w : Lane) (hs : st.length = 200) (hn : n < 25) (hd : pos + n * 8 ≤ data.length) :
    xorMem (Bytes.xorAt st 0 (Bytes.slice data pos (n * 8))) (n * 8) w = some (added st data pos n w) := by
  rw [xorMem_word _ _ _ (by rw [Bytes.length_xorAt]; omega), added, ← Bytes.xorAt_append, Bytes.length_slice_of_le hd, Nat.zero_add]

theorem length_added (st data : Bytes) (pos n : Nat) (w : Lane) : (added st data pos n w).length = st.length := Bytes.length_xorAt _ _ _

/-- The blocks that the loop absorbs. -/
def absorbed (s : Bytes) (n : Nat) (w : Lane) (q : Nat) (data : Bytes) : Bytes :=
  SnP.absorbBlocks (KeccakP1600.Ref.permuteNrounds 24) (n * 8 + 8) q s (withTrailer (n * 8) (bytesOfWord w) q data)

theorem absorbed_succ (s : Bytes) (n : Nat) (w : Lane) (q : Nat) (data : Bytes) (pos : Nat) (h : pos + n * 8 ≤ data.length) :
    absorbed s n w (q + 1) (data.drop pos) =
      absorbed (KeccakP1600.Ref.permuteNrounds 24 (added s data pos n w)) n w q (data.drop (pos + n * 8)) := by
  have hl : ((data.drop pos).take (n * 8) ++ bytesOfWord w).length = n * 8 + 8 := by
    rw [List.length_append, KeccakP1600.length_bytesOfWord, List.length_take, List.length_drop]; omega
  rw [absorbed, withTrailer, SnP.absorbBlocks, List.take_left' hl, List.drop_left' hl, List.drop_drop]
  rfl

/-- What one of the two loops does, from a body that adds a block. -/
theorem loop_eq (n : Nat) (h0 : 0 < n) (w : Lane) (data : Bytes) (loop : Nat → Bytes → Nat → Nat → Option (Bytes × Nat))
    (step : ∀ fuel st pos left, st.length = 200 → pos + n * 8 ≤ data.length → ∃ t, t.length = 200 ∧
      laneComplement t = KeccakP1600.Ref.permuteNrounds 24 (added (laneComplement st) data pos n w) ∧
      loop (fuel + 1) st pos left = if left < n then some (t, pos + n * 8) else loop fuel t (pos + n * 8) (sub64 left n)) :
    ∀ (fuel : Nat) (st : Bytes) (pos left : Nat), left < fuel → left < 2 ^ 64 → pos + (left + n) * 8 ≤ data.length → st.length = 200 →
      ∃ t, loop fuel st pos left = some (t, pos + (left + n) / n * (n * 8)) ∧ t.length = 200 ∧
        laneComplement t = absorbed (laneComplement st) n w ((left + n) / n) (data.drop pos) := by
  intro fuel
  induction fuel with
  | zero => intro st pos left h; omega
  | succ fuel ih =>
    intro st pos left hf h64 hd hs
    rw [Nat.add_mul] at hd
    obtain ⟨t, ht, hv, e⟩ := step fuel st pos left hs (by omega)
    have hq : (left + n) / n = left / n + 1 := Nat.add_div_right _ h0
    rw [e, hq, absorbed_succ _ _ _ _ _ _ (by omega), ← hv]
    by_cases hc : left < n
    · rw [if_pos hc, Nat.div_eq_of_lt hc]
      refine ⟨t, ?_, ht, rfl⟩
      rw [Nat.zero_add, Nat.one_mul]
    · have hdn : left / n = (left - n + n) / n := by rw [Nat.sub_add_cancel (by omega)]
      obtain ⟨t', e', ht', hv'⟩ := ih t (pos + n * 8) (left - n) (by omega) (by omega) (by rw [Nat.sub_add_cancel (by omega)]; omega) ht
      rw [← hdn] at e' hv'
      refine ⟨t', ?_, ht', hv'⟩
      rw [if_neg hc, sub64_eq (by omega) (by omega), e', Nat.add_mul _ 1, Nat.one_mul, Nat.add_assoc, Nat.add_comm (n * 8)]

theorem loop21_eq (v : Variant) (junk : V) (w : Lane) (data : Bytes) (fuel : Nat) (st : Bytes) (pos left : Nat) (hs : st.length = 200)
    (hd : pos + 21 * 8 ≤ data.length) : ∃ t, t.length = 200 ∧
      laneComplement t = KeccakP1600.Ref.permuteNrounds 24 (added (laneComplement st) data pos 21 w) ∧
      loop21 v junk data w (fuel + 1) st pos left = if left < 21 then some (t, pos + 21 * 8) else loop21 v junk data w fuel t (pos + 21 * 8) (sub64 left 21) := by
  obtain ⟨t, e, ht, hv⟩ := permute24_eq v junk (added st data pos 21 w) ((length_added _ _ _ _ _).trans hs)
  refine ⟨t, ht, ?_, ?_⟩
  · rw [hv, added, lc_xorAt]; rfl
  · rw [loop21, show [0, 1, 2, 3, 4, 5, 6, 7, 8, 9] = List.range' 0 10 from rfl, show [10, 11, 12, 13, 14] = List.range' 10 5 from rfl,
      show [15, 16, 17, 18, 19, 20] = List.range' 15 6 from rfl, addWords_eq _ _ _ _ _ (by omega) (by omega)]
    simp only [Option.bind_eq_bind, Option.bind_some]
    rw [addWords_eq _ _ _ _ _ (by omega) (by rw [Bytes.length_xorAt]; omega), Option.bind_some,
      addWords_eq _ _ _ _ _ (by omega) (by rw [Bytes.length_xorAt, Bytes.length_xorAt]; omega), Option.bind_some]
    have e1 := xorAt_slice st data 0 pos 80 40 (by omega)
    have e2 := xorAt_slice st data 0 pos 120 48 (by omega)
    have e3 := added_eq st data pos 21 w hs (by omega) hd
    simp only [Nat.zero_mul, Nat.add_zero, Nat.zero_add, Nat.reduceMul, Nat.reduceAdd] at e1 e2 e3 ⊢
    rw [e1, e2, e3, Option.bind_some, show permutation v lines24 junk (added st data pos 21 w) = some t from e, Option.bind_some]

theorem variableLoop_eq (v : Variant) (junk : V) (n : Nat) (hn : n < 25) (w : Lane) (data : Bytes) (fuel : Nat) (st : Bytes) (pos left : Nat)
    (hs : st.length = 200) (hd : pos + n * 8 ≤ data.length) : ∃ t, t.length = 200 ∧
      laneComplement t = KeccakP1600.Ref.permuteNrounds 24 (added (laneComplement st) data pos n w) ∧
      variableLoop v junk n data w (fuel + 1) st pos left =
        if left < n then some (t, pos + n * 8) else variableLoop v junk n data w fuel t (pos + n * 8) (sub64 left n) := by
  obtain ⟨t, e, ht, hv⟩ := permute24_eq v junk (added st data pos n w) ((length_added _ _ _ _ _).trans hs)
  refine ⟨t, ht, ?_, ?_⟩
  · rw [hv, added, lc_xorAt]; rfl
  · rw [variableLoop, show n * 2 ^ 3 = n * 8 from rfl, addBytesP_eq v st data pos 0 (n * 8) hs (by omega) hd]
    simp only [Option.bind_eq_bind, Option.bind_some]
    rw [Nat.zero_add, added_eq st data pos n w hs hn hd, Option.bind_some, e, Option.bind_some]

theorem fastLoop_eq (v : Variant) (junk : V) (st : Bytes) (hs : st.length = 200) (n : Nat) (h0 : 0 < n) (hn : n < 25) (data : Bytes)
    (hd : data.length < 2 ^ 64) (w : Lane) : ∃ t, fastLoop v junk st n data w = some (t, data.length / (n * 8) * (n * 8)) ∧ t.length = 200 ∧
      laneComplement t = absorbed (laneComplement st) n w (data.length / (n * 8)) data := by
  have hdiv : data.length / (n * 8) = data.length / 2 ^ 3 / n := by rw [Nat.mul_comm, Nat.div_div_eq_div_mul]; rfl
  have h8 : data.length / 2 ^ 3 * 8 ≤ data.length := Nat.div_mul_le_self _ _
  rw [hdiv, fastLoop]
  dsimp only
  generalize data.length / 2 ^ 3 = m at *
  by_cases hc : m < n
  · rw [if_pos hc, Nat.div_eq_of_lt hc, Nat.zero_mul]
    exact ⟨st, rfl, hs, rfl⟩
  · rw [if_neg hc, sub64_eq (by omega) (by omega)]
    have hm : m - n + n = m := by omega
    by_cases h21 : n = 21
    · subst h21
      rw [if_neg (by decide)]
      obtain ⟨t, e, ht, hv⟩ := loop_eq 21 h0 w data (loop21 v junk data w) (loop21_eq v junk w data) (data.length + 1) st 0 (m - 21) (by omega) (by omega)
        (by omega) hs
      rw [hm] at e hv
      exact ⟨t, by rw [e, Nat.zero_add], ht, hv⟩
    · rw [if_pos h21]
      obtain ⟨t, e, ht, hv⟩ := loop_eq n h0 w data (variableLoop v junk n data w) (variableLoop_eq v junk n hn w data) (data.length + 1) st 0 (m - n)
        (by omega) (by omega) (by omega) hs
      rw [hm] at e hv
      exact ⟨t, by rw [e, Nat.zero_add], ht, hv⟩

/-- With no trailing bits the blocks are the plain ones. -/
theorem absorbed_zero (n : Nat) : ∀ (q : Nat) (s data : Bytes), q * (n * 8) ≤ data.length →
    absorbed s n 0 q data = SnP.absorbBlocks (KeccakP1600.Ref.permuteNrounds 24) (n * 8) q s data := by
  intro q
  induction q with
  | zero => intro s data _; rfl
  | succ q ih =>
    intro s data h
    rw [Nat.add_mul, Nat.one_mul] at h
    have hz : bytesOfWord (0 : Lane) = List.replicate 8 0 := by decide
    have := absorbed_succ s n 0 q data 0 (by omega)
    rw [List.drop_zero, Nat.zero_add] at this
    rw [this, ih _ _ (by rw [List.length_drop]; omega), SnP.absorbBlocks, added]
    congr 2
    rw [← Bytes.xorAt_append, hz]
    apply List.ext_getElem?
    intro j
    rw [Bytes.getElem?_xorAt, show (data.take (n * 8)) = Bytes.slice data 0 (n * 8) by rw [Bytes.slice, List.drop_zero]]
    have z : ∀ k, (List.replicate 8 (0 : Byte)).getD k 0 = 0 := by
      intro k
      rw [List.getD_eq_getElem?_getD, List.getElem?_replicate]
      split <;> rfl
    cases (Bytes.xorAt s 0 (Bytes.slice data 0 (n * 8)))[j]? with
    | none => rfl
    | some b => rw [Option.map_some, z, ite_self]; exact congrArg some BitVec.xor_zero

end X64Asm
