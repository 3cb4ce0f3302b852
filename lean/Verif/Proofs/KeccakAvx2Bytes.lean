import Verif.Proofs.KeccakAvx2Rounds

/-!
The byte access functions of the AVX2 implementation in assembly.
-/

namespace Avx2Asm

open KeccakP1600 (Lane Lanes wordOfBytes bytesOfWord bytesOfLanes)
open Avx2Layout (place view)
open X86

/-- Where byte `j` of the state is in memory. -/
def phys (j : Nat) : Nat := 8 * place (j / 8) + j % 8

theorem quad_map (o : Nat) (h : o < 200) (h8 : o % 8 = 0) : quad mapState o = some (8 * place (o / 8)) := by
  have e : ∀ i : Fin 25, quad mapState (8 * i.val) = some (8 * place i.val) := by decide
  have := e ⟨o / 8, by omega⟩
  simp only at this
  rwa [show 8 * (o / 8) = o by omega] at this

theorem phys_lt (j : Nat) (h : j < 200) : 8 * place (j / 8) + 8 ≤ 200 := by
  have := place_lt ⟨j / 8, by omega⟩
  simp only at this
  omega

theorem getD_phys (st : Bytes) (o q : Nat) (h : o + q < 200) (h8 : o % 8 + q < 8) : st.getD (phys o + q) 0 = (view st).getD (o + q) 0 := by
  rw [getD_view st (o + q) h, phys, show (o + q) / 8 = o / 8 by omega, show (o + q) % 8 = o % 8 + q by omega, Nat.add_assoc]

/-- A change within a lane of the memory is the same change in the usual order. -/
theorem view_opAt (op : Op) (st d : Bytes) (hs : st.length = 200) (o : Nat) (h : o + d.length ≤ 200) (h0 : 0 < d.length) (h8 : o % 8 + d.length ≤ 8) :
    view (opAt op st (phys o) d) = opAt op (view st) o d := by
  apply ext_getD (by rw [length_view, length_opAt, length_view])
  intro j hj
  rw [length_view] at hj
  have hp := phys_lt j hj
  have hq := phys_lt o (by omega)
  have hinj := place_inj ⟨j / 8, by omega⟩ ⟨o / 8, by omega⟩
  simp only [Fin.mk.injEq] at hinj
  rw [getD_view _ j hj, getD_opAt _ _ _ _ _ (by omega), getD_opAt _ _ _ _ _ (by rw [length_view]; omega), getD_view _ j hj]
  by_cases e : place (j / 8) = place (o / 8)
  · have e' := hinj e
    rw [e', phys]
    by_cases hc : o ≤ j ∧ j < o + d.length
    · rw [if_pos (by omega), if_pos hc, show 8 * place (o / 8) + j % 8 - (8 * place (o / 8) + o % 8) = j - o by omega]
    · rw [if_neg (by omega), if_neg hc]
  · have hne : j / 8 ≠ o / 8 := fun h => e (by rw [h])
    unfold phys
    rw [if_neg (by omega), if_neg (by omega)]

/-- After `k` bytes have been written. -/
def Written (op : Op) (st0 data : Bytes) (offset k : Nat) (t : Bytes) : Prop :=
  t.length = 200 ∧ view t = opAt op (view st0) offset (data.take k)

theorem Written.step {op : Op} {st0 data t : Bytes} {offset k : Nat} (h : Written op st0 data offset k t) (m : Nat) (h0 : 0 < m)
    (h1 : offset + k + m ≤ 200) (h8 : (offset + k) % 8 + m ≤ 8) (hd : k + m ≤ data.length) :
    Written op st0 data offset (k + m) (opAt op t (phys (offset + k)) (Bytes.slice data k m)) := by
  obtain ⟨h2, h3⟩ := h
  have hl : (Bytes.slice data k m).length = m := Bytes.length_slice_of_le hd
  refine ⟨by rw [length_opAt, h2], ?_⟩
  rw [view_opAt op t _ h2 _ (by omega) (by omega) (by omega), h3]
  have e : offset + k = offset + (data.take k).length := by rw [List.length_take]; omega
  rw [e, opAt_append]
  congr 1
  rw [List.take_add]; rfl

theorem lanesLoop_eq (op : Op) (st0 data : Bytes) (offset length : Nat) (h1 : offset + length ≤ 200) (hd : length ≤ data.length) :
    ∀ (fuel k : Nat) (t : Bytes), length - k < fuel → k ≤ length → (offset + k) % 8 = 0 → Written op st0 data offset k t →
      ∃ t' k', lanesLoop op data fuel t k (offset + k) (length - k) = some (t', k', offset + k', sub64 (length - k') 8) ∧ length - k' < 8 ∧
        k' ≤ length ∧ (offset + k') % 8 = 0 ∧ Written op st0 data offset k' t' := by
  intro fuel
  induction fuel with
  | zero => intro k t hf; omega
  | succ fuel ih =>
    intro k t hf hk h8 hw
    by_cases hc : length - k ≥ 8
    · have hp := phys_lt (offset + k) (by omega)
      have e0 : phys (offset + k) = 8 * place ((offset + k) / 8) := by rw [phys, h8]; rfl
      have hs := hw.step 8 (by decide) (by omega) (by omega) (by omega)
      obtain ⟨t', k', e1, e2⟩ := ih (k + 8) _ (by omega) (by omega) (by omega) hs
      refine ⟨t', k', ?_, e2⟩
      rw [lanesLoop, if_pos hc, rd64_ok _ _ (by omega), quad_map _ (by omega) h8]
      simp only [Option.bind_eq_bind, Option.bind_some]
      rw [rd64_ok _ _ (by rw [hw.1]; omega), Option.bind_some, wr64_op op t data _ k (by rw [hw.1]; omega) (by omega), Option.bind_some,
        sub64_eq hc (by omega), ← e1, ← e0, Nat.add_assoc, Nat.sub_sub]
    · refine ⟨t, k, ?_, by omega, hk, h8, hw⟩
      rw [lanesLoop, if_neg hc]

theorem written_zero (op : Op) (st data : Bytes) (hs : st.length = 200) (offset : Nat) : Written op st data offset 0 st :=
  ⟨hs, by rw [List.take_zero, opAt_nil]⟩

theorem head_len (offset length : Nat) : cmovae length (sub64 8 (offset % 8)) = min length (8 - offset % 8) := by
  rw [sub64_eq (by omega) (by decide), cmovae_eq]

theorem writeBytes_eq (op : Op) (st data : Bytes) (hs : st.length = 200) (offset length : Nat) (h1 : offset + length ≤ 200)
    (hd : length ≤ data.length) : ∃ t, writeBytes op st data offset length = some t ∧ Written op st data offset length t := by
  by_cases hl : length = 0
  · subst hl
    exact ⟨st, by rw [writeBytes]; rfl, written_zero op st data hs offset⟩
  · have hand := and32_eq ⟨offset, by omega⟩
    simp only at hand
    -- the first lane
    have head : ∃ t k, writeHead op st data (offset &&& 7) (and32 offset 0xFFFFFFF8) length =
           some (t, k, (if length = k ∧ (offset + k) % 8 ≠ 0 then offset / 8 * 8 + 8 else offset + k), length - k) ∧
        k ≤ length ∧ (length = k ∨ (offset + k) % 8 = 0) ∧ Written op st data offset k t := by
      rw [and7_eq, hand, writeHead]
      by_cases h8 : offset % 8 = 0
      · refine ⟨st, 0, ?_, by omega, Or.inr h8, written_zero op st data hs offset⟩
        rw [if_pos h8, if_neg (by omega), show offset / 8 * 8 = offset by omega]; rfl
      · rw [if_neg h8]
        simp only
        rw [head_len]
        obtain ⟨k, hk⟩ : ∃ k, min length (8 - offset % 8) = k + 1 := ⟨min length (8 - offset % 8) - 1, by omega⟩
        have hp := phys_lt offset (by omega)
        rw [hk, quad_map _ (by omega) (by omega), show offset / 8 * 8 / 8 = offset / 8 by omega]
        simp only [Option.bind_eq_bind, Option.bind_some]
        have hw := (written_zero op st data hs offset).step (k + 1) (by omega) (by omega) (by omega) (by omega)
        rw [Nat.add_zero, Nat.zero_add] at hw
        rw [bytesLoop_eq op data k _ st 0 _ (by omega) (by omega) (by omega) (by rw [hs]; omega), Option.bind_some]
        refine ⟨_, k + 1, ?_, by omega, by omega, hw⟩
        rw [sub64_eq (by omega) (by omega), Nat.zero_add, phys, Nat.add_comm (offset % 8)]
        split
        · rfl
        · rename_i hne
          rw [show offset / 8 * 8 + 8 = offset + (k + 1) by omega]; rfl
    obtain ⟨t, k, e1, hk, h8, hw⟩ := head
    rw [writeBytes]
    simp only
    rw [if_neg hl, e1]
    simp only [Option.bind_eq_bind, Option.bind_some]
    by_cases hkl : length = k
    · -- nothing left
      subst hkl
      refine ⟨t, ?_, hw⟩
      rw [Nat.sub_self, lanesLoop, if_neg (by decide)]
      simp only [Option.bind_some]
      rw [add_sub64 (by decide) (by decide)]; rfl
    · rw [if_neg (by omega)]
      obtain ⟨t', k', e2, h2, h3, h4, hw'⟩ := lanesLoop_eq op st data offset length h1 hd (length - k + 1) k t (by omega) hk (by omega) hw
      rw [e2]
      simp only [Option.bind_some]
      rw [add_sub64 h2 (by decide)]
      by_cases hz : length - k' = 0
      · refine ⟨t', by rw [if_pos hz], ?_⟩
        rwa [show k' = length by omega] at hw'
      · obtain ⟨n, hn⟩ : ∃ n, length - k' = n + 1 := ⟨length - k' - 1, by omega⟩
        have hp := phys_lt (offset + k') (by omega)
        have e0 : phys (offset + k') = 8 * place ((offset + k') / 8) := by rw [phys, h4]; rfl
        have hs' := hw'.step (n + 1) (by omega) (by omega) (by omega) (by omega)
        rw [if_neg hz, quad_map _ (by omega) h4, Option.bind_some, hn,
          bytesLoop_eq op data n _ t' k' _ (by omega) (by omega) (by omega) (by rw [hw'.1]; omega), Option.bind_some]
        refine ⟨_, rfl, ?_⟩
        rw [e0] at hs'
        rwa [show k' + (n + 1) = length by omega] at hs'

/-! ### Zeroes -/

theorem zeroLanesLoop_eq (st0 : Bytes) (length : Nat) (h1 : length ≤ 200) :
    ∀ (fuel k : Nat) (t : Bytes), length - k < fuel → k ≤ length → k % 8 = 0 → Written .mov st0 (List.replicate length 0) 0 k t →
      ∃ t' k', zeroLanesLoop fuel t k (length - k) = some (t', k', sub64 (length - k') 8) ∧ length - k' < 8 ∧
        k' ≤ length ∧ k' % 8 = 0 ∧ Written .mov st0 (List.replicate length 0) 0 k' t' := by
  intro fuel
  induction fuel with
  | zero => intro k t hf; omega
  | succ fuel ih =>
    intro k t hf hk h8 hw
    by_cases hc : length - k ≥ 8
    · have hp := phys_lt k (by omega)
      have e0 : phys (0 + k) = 8 * place (k / 8) := by rw [Nat.zero_add, phys, h8]; rfl
      have hs := hw.step 8 (by decide) (by omega) (by omega) (by rw [List.length_replicate]; omega)
      obtain ⟨t', k', e1, e2⟩ := ih (k + 8) _ (by omega) (by omega) (by omega) hs
      refine ⟨t', k', ?_, e2⟩
      have e3 : Bytes.slice (List.replicate length 0) k 8 = bytesOfWord 0 := by
        rw [Bytes.slice, List.drop_replicate, List.take_replicate, show min 8 (length - k) = 8 by omega]; rfl
      rw [zeroLanesLoop, if_pos hc, quad_map _ (by omega) h8]
      simp only [Option.bind_eq_bind, Option.bind_some]
      rw [wr64_ok _ _ _ (by rw [hw.1]; omega), Option.bind_some, sub64_eq hc (by omega), ← e1, e0, e3, Nat.sub_sub]
      rfl
    · refine ⟨t, k, ?_, by omega, hk, h8, hw⟩
      rw [zeroLanesLoop, if_neg hc]

theorem overwriteWithZeroes_eq (st : Bytes) (hs : st.length = 200) (length : Nat) (h1 : length ≤ 200) :
    ∃ t, overwriteWithZeroes st length = some t ∧ t.length = 200 ∧ view t = Bytes.setAt (view st) 0 (List.replicate length 0) := by
  have fin : ∀ t, Written .mov st (List.replicate length 0) 0 length t →
      t.length = 200 ∧ view t = Bytes.setAt (view st) 0 (List.replicate length 0) := by
    intro t h
    refine ⟨h.1, h.2.trans ?_⟩
    rw [List.take_replicate, Nat.min_self]; rfl
  by_cases hl : length = 0
  · subst hl
    exact ⟨st, by rw [overwriteWithZeroes]; rfl, fin _ (written_zero .mov st _ hs 0)⟩
  · obtain ⟨t', k', e2, h2, h3, h4, hw'⟩ := zeroLanesLoop_eq st length h1 (length + 1) 0 st (by omega) (by omega) rfl
      (written_zero .mov st _ hs 0)
    rw [Nat.sub_zero] at e2
    rw [overwriteWithZeroes]
    simp only
    rw [if_neg hl, e2]
    simp only [Option.bind_eq_bind, Option.bind_some]
    rw [add_sub64 h2 (by decide)]
    by_cases hz : length - k' = 0
    · refine ⟨t', by rw [if_pos hz], fin _ ?_⟩
      rwa [show k' = length by omega] at hw'
    · obtain ⟨n, hn⟩ : ∃ n, length - k' = n + 1 := ⟨length - k' - 1, by omega⟩
      have hp := phys_lt k' (by omega)
      have e0 : phys (0 + k') = 8 * place (k' / 8) := by rw [Nat.zero_add, phys, h4]; rfl
      have hs' := hw'.step (n + 1) (by omega) (by omega) (by omega) (by rw [List.length_replicate]; omega)
      have e3 : Bytes.slice (List.replicate length 0) k' (n + 1) = (List.replicate (n + 1) 0 : Bytes) := by
        rw [Bytes.slice, List.drop_replicate, List.take_replicate, show min (n + 1) (length - k') = n + 1 by omega]
      rw [if_neg hz, quad_map _ (by omega) h4, Option.bind_some, hn,
        zeroLoop_eq n _ t' _ (by omega) (by omega) (by rw [hw'.1]; omega)]
      refine ⟨_, rfl, fin _ ?_⟩
      rw [e0, e3] at hs'
      rwa [show k' + (n + 1) = length by omega] at hs'

theorem addByte_eq (st : Bytes) (hs : st.length = 200) (b : Byte) (o : Nat) (h : o < 200) :
    ∃ t, addByte st b o = some t ∧ t.length = 200 ∧ view t = Bytes.xorAt (view st) o [b] := by
  have hand := and32_eq ⟨o, h⟩
  simp only at hand
  have hp := phys_lt o h
  have e0 : 8 * place (o / 8) + o % 8 = phys o := rfl
  rw [addByte]
  simp only
  rw [and7_eq, hand, quad_map _ (by omega) (by omega), show o / 8 * 8 / 8 = o / 8 by omega]
  simp only [Option.bind_eq_bind, Option.bind_some]
  rw [e0, rd8_ok _ _ (by rw [phys]; omega)]
  have := wr8_ok .xor st (phys o) b (by rw [phys]; omega)
  refine ⟨_, this, by rw [length_opAt, hs], ?_⟩
  exact view_opAt .xor st [b] hs o (by simp; omega) (by simp) (by simp; omega)

theorem init_eq (st : Bytes) (hs : st.length = 200) : Avx2Asm.init st = some (List.replicate 200 0) := by
  have hl := length_bytes4
  have e : ∀ (p : Bytes) (a : Nat), a = 0 + p.length → a + 32 ≤ 200 →
      store zero a (Bytes.setAt st 0 p) = some (Bytes.setAt st 0 (p ++ bytes4 zero)) := by
    intro p a ha hb
    rw [store_ok zero a _ (by rw [Bytes.length_setAt]; omega), ha, Bytes.setAt_append]
  have hz : bytes4 zero = List.replicate 32 0 := rfl
  have hw : bytesOfWord 0 = List.replicate 8 0 := rfl
  unfold Avx2Asm.init
  simp only [Option.bind_eq_bind]
  rw [store_ok _ _ _ (by omega), Option.bind_some, e _ _ (by rw [hl]) (by decide), Option.bind_some,
    e _ _ (by simp only [List.length_append, hl]) (by decide), Option.bind_some,
    e _ _ (by simp only [List.length_append, hl]) (by decide), Option.bind_some,
    e _ _ (by simp only [List.length_append, hl]) (by decide), Option.bind_some,
    e _ _ (by simp only [List.length_append, hl]) (by decide), Option.bind_some,
    wr64_ok _ _ _ (by rw [Bytes.length_setAt]; omega), hz, hw]
  simp only [List.replicate_append_replicate]
  have h6 : 6 * 32 = 0 + (List.replicate (32 + 32 + 32 + 32 + 32 + 32) (0 : Byte)).length := by rw [List.length_replicate]
  rw [h6, Bytes.setAt_append, List.replicate_append_replicate, Plane512.setAt_all _ _ (by rw [List.length_replicate, hs])]

theorem view_zero : view (List.replicate 200 0) = List.replicate 200 0 := by
  apply ext_getD (by rw [length_view, List.length_replicate])
  intro j hj
  rw [length_view] at hj
  have hp := phys_lt j hj
  rw [getD_view _ _ hj, List.getD_eq_getElem?_getD, List.getD_eq_getElem?_getD, List.getElem?_replicate, List.getElem?_replicate,
    if_pos (by omega), if_pos hj]

/-! ### Extraction -/

theorem outOf_view (st : Bytes) (o m : Nat) (h : o + m ≤ 200) (h8 : o % 8 + m ≤ 8) : outOf st (phys o) m = outOf (view st) o m := by
  apply List.map_congr_left
  intro q hq
  have := List.mem_range.1 hq
  exact getD_phys st o q (by omega) (by omega)

theorem mixOf_view (st input : Bytes) (o i m : Nat) (h : o + m ≤ 200) (h8 : o % 8 + m ≤ 8) :
    mixOf st input (phys o) i m = mixOf (view st) input o i m := by
  apply List.map_congr_left
  intro q hq
  have := List.mem_range.1 hq
  show st.getD (phys o + q) 0 ^^^ _ = _
  rw [getD_phys st o q (by omega) (by omega)]

theorem outLanesLoop_eq (st : Bytes) (hs : st.length = 200) (offset length : Nat) (h1 : offset + length ≤ 200) :
    ∀ (fuel k : Nat), length - k < fuel → k ≤ length → (offset + k) % 8 = 0 →
      ∃ k', outLanesLoop st fuel (offset + k) (length - k) (outOf (view st) offset k) =
          some (offset + k', sub64 (length - k') 8, outOf (view st) offset k') ∧ length - k' < 8 ∧
        k' ≤ length ∧ (offset + k') % 8 = 0 := by
  intro fuel
  induction fuel with
  | zero => intro k hf; omega
  | succ fuel ih =>
    intro k hf hk h8
    by_cases hc : length - k ≥ 8
    · have hp := phys_lt (offset + k) (by omega)
      have e0 : phys (offset + k) = 8 * place ((offset + k) / 8) := by rw [phys, h8]; rfl
      obtain ⟨k', e1, e2⟩ := ih (k + 8) (by omega) (by omega) (by omega)
      refine ⟨k', ?_, e2⟩
      rw [outLanesLoop, if_pos hc, quad_map _ (by omega) h8]
      simp only [Option.bind_eq_bind, Option.bind_some]
      rw [rd64_ok _ _ (by rw [hs]; omega), Option.bind_some, sub64_eq hc (by omega), ← e1, bytesOfWord_out, ← e0,
        outOf_view _ _ _ (by omega) (by omega), outOf_add, Nat.add_assoc, Nat.sub_sub]
    · exact ⟨k, by rw [outLanesLoop, if_neg hc], by omega, hk, h8⟩

theorem extractBytes_eq (st : Bytes) (hs : st.length = 200) (offset length : Nat) (h1 : offset + length ≤ 200) :
    extractBytes st offset length = some (Bytes.slice (view st) offset length) := by
  rw [← outOf_eq _ _ _ (by rw [length_view]; exact h1)]
  by_cases hl : length = 0
  · subst hl; rw [extractBytes]; rfl
  · have hand := and32_eq ⟨offset, by omega⟩
    simp only at hand
    have head : ∃ k, extractHead st (offset &&& 7) (and32 offset 0xFFFFFFF8) length =
           some ((if length = k ∧ (offset + k) % 8 ≠ 0 then offset / 8 * 8 + 8 else offset + k), length - k,
            outOf (view st) offset k) ∧ k ≤ length ∧ (length = k ∨ (offset + k) % 8 = 0) := by
      rw [and7_eq, hand, extractHead]
      by_cases h8 : offset % 8 = 0
      · refine ⟨0, ?_, by omega, Or.inr h8⟩
        rw [if_pos h8, if_neg (by omega), show offset / 8 * 8 = offset by omega]; rfl
      · rw [if_neg h8]
        simp only
        rw [head_len]
        obtain ⟨k, hk⟩ : ∃ k, min length (8 - offset % 8) = k + 1 := ⟨min length (8 - offset % 8) - 1, by omega⟩
        have hp := phys_lt offset (by omega)
        have e0 : 8 * place (offset / 8) + offset % 8 = phys offset := rfl
        rw [hk, quad_map _ (by omega) (by omega), show offset / 8 * 8 / 8 = offset / 8 by omega]
        simp only [Option.bind_eq_bind, Option.bind_some]
        rw [e0, outLoop_eq st k _ _ _ (by omega) (by omega) (by rw [hs, phys]; omega), Option.bind_some]
        refine ⟨k + 1, ?_, by omega, by omega⟩
        rw [sub64_eq (by omega) (by omega), List.nil_append, outOf_view _ _ _ (by omega) (by omega)]
        split
        · rfl
        · rename_i hne
          rw [show offset / 8 * 8 + 8 = offset + (k + 1) by omega]
    obtain ⟨k, e1, hk, h8⟩ := head
    rw [extractBytes]
    simp only
    rw [if_neg hl, e1]
    simp only [Option.bind_eq_bind, Option.bind_some]
    by_cases hkl : length = k
    · subst hkl
      rw [Nat.sub_self, outLanesLoop, if_neg (by decide)]
      simp only [Option.bind_some]
      rw [add_sub64 (by decide) (by decide)]; rfl
    · rw [if_neg (by omega)]
      obtain ⟨k', e2, h2, h3, h4⟩ := outLanesLoop_eq st hs offset length h1 (length - k + 1) k (by omega) hk (by omega)
      rw [e2]
      simp only [Option.bind_some]
      rw [add_sub64 h2 (by decide)]
      by_cases hz : length - k' = 0
      · rw [if_pos hz, show k' = length by omega]
      · obtain ⟨n, hn⟩ : ∃ n, length - k' = n + 1 := ⟨length - k' - 1, by omega⟩
        have hp := phys_lt (offset + k') (by omega)
        have e0 : phys (offset + k') = 8 * place ((offset + k') / 8) := by rw [phys, h4]; rfl
        rw [if_neg hz, quad_map _ (by omega) h4, Option.bind_some, rd64_ok _ _ (by rw [hs]; omega), Option.bind_some, hn,
          outWordLoop_eq n _ _ _ (by omega) (by omega), outWord_eq _ _ _ (by omega), ← e0, outOf_view _ _ _ (by omega) (by omega), outOf_add,
          show k' + (n + 1) = length by omega]

theorem xorOutLanesLoop_eq (st input : Bytes) (hs : st.length = 200) (offset length : Nat) (h1 : offset + length ≤ 200)
    (hd : length ≤ input.length) : ∀ (fuel k : Nat), length - k < fuel → k ≤ length → (offset + k) % 8 = 0 →
      ∃ k', xorOutLanesLoop st input fuel k (offset + k) (length - k) (mixOf (view st) input offset 0 k) =
          some (k', offset + k', sub64 (length - k') 8, mixOf (view st) input offset 0 k') ∧ length - k' < 8 ∧
        k' ≤ length ∧ (offset + k') % 8 = 0 := by
  intro fuel
  induction fuel with
  | zero => intro k hf; omega
  | succ fuel ih =>
    intro k hf hk h8
    by_cases hc : length - k ≥ 8
    · have hp := phys_lt (offset + k) (by omega)
      have e0 : phys (offset + k) = 8 * place ((offset + k) / 8) := by rw [phys, h8]; rfl
      obtain ⟨k', e1, e2⟩ := ih (k + 8) (by omega) (by omega) (by omega)
      refine ⟨k', ?_, e2⟩
      have em := mixOf_add (view st) input offset 0 k 8
      rw [Nat.zero_add] at em
      rw [xorOutLanesLoop, if_pos hc, quad_map _ (by omega) h8]
      simp only [Option.bind_eq_bind, Option.bind_some]
      rw [rd64_ok _ _ (by rw [hs]; omega), Option.bind_some, rd64_ok _ _ (by omega), Option.bind_some, sub64_eq hc (by omega), ← e1,
        bytesOfWord_mix, ← e0, mixOf_view _ _ _ _ _ (by omega) (by omega), em, Nat.add_assoc, Nat.sub_sub]
    · exact ⟨k, by rw [xorOutLanesLoop, if_neg hc], by omega, hk, h8⟩

theorem extractAndAddBytes_eq (st input : Bytes) (hs : st.length = 200) (offset length : Nat) (h1 : offset + length ≤ 200)
    (hd : length ≤ input.length) :
    extractAndAddBytes st input offset length = some (Bytes.xor (input.take length) (Bytes.slice (view st) offset length)) := by
  rw [← mixOf_eq _ _ _ _ (by rw [length_view]; exact h1) hd]
  by_cases hl : length = 0
  · subst hl; rw [extractAndAddBytes]; rfl
  · have hand := and32_eq ⟨offset, by omega⟩
    simp only at hand
    have head : ∃ k, extractAndAddHead st input (offset &&& 7) (and32 offset 0xFFFFFFF8) length =
           some (k, (if length = k ∧ (offset + k) % 8 ≠ 0 then offset / 8 * 8 + 8 else offset + k), length - k,
            mixOf (view st) input offset 0 k) ∧ k ≤ length ∧ (length = k ∨ (offset + k) % 8 = 0) := by
      rw [and7_eq, hand, extractAndAddHead]
      by_cases h8 : offset % 8 = 0
      · refine ⟨0, ?_, by omega, Or.inr h8⟩
        rw [if_pos h8, if_neg (by omega), show offset / 8 * 8 = offset by omega]; rfl
      · rw [if_neg h8]
        simp only
        rw [head_len]
        obtain ⟨k, hk⟩ : ∃ k, min length (8 - offset % 8) = k + 1 := ⟨min length (8 - offset % 8) - 1, by omega⟩
        have hp := phys_lt offset (by omega)
        have e0 : 8 * place (offset / 8) + offset % 8 = phys offset := rfl
        rw [hk, quad_map _ (by omega) (by omega), show offset / 8 * 8 / 8 = offset / 8 by omega]
        simp only [Option.bind_eq_bind, Option.bind_some]
        rw [e0, xorOutLoop_eq st input k _ _ _ _ (by omega) (by omega) (by rw [hs, phys]; omega) (by omega), Option.bind_some]
        refine ⟨k + 1, ?_, by omega, by omega⟩
        rw [sub64_eq (by omega) (by omega), List.nil_append, mixOf_view _ _ _ _ _ (by omega) (by omega), Nat.zero_add]
        split
        · rfl
        · rename_i hne
          rw [show offset / 8 * 8 + 8 = offset + (k + 1) by omega]
    obtain ⟨k, e1, hk, h8⟩ := head
    rw [extractAndAddBytes]
    simp only
    rw [if_neg hl, e1]
    simp only [Option.bind_eq_bind, Option.bind_some]
    by_cases hkl : length = k
    · subst hkl
      rw [Nat.sub_self, xorOutLanesLoop, if_neg (by decide)]
      simp only [Option.bind_some]
      rw [add_sub64 (by decide) (by decide)]; rfl
    · rw [if_neg (by omega)]
      obtain ⟨k', e2, h2, h3, h4⟩ := xorOutLanesLoop_eq st input hs offset length h1 hd (length - k + 1) k (by omega) hk (by omega)
      rw [e2]
      simp only [Option.bind_some]
      rw [add_sub64 h2 (by decide)]
      by_cases hz : length - k' = 0
      · rw [if_pos hz, show k' = length by omega]
      · obtain ⟨n, hn⟩ : ∃ n, length - k' = n + 1 := ⟨length - k' - 1, by omega⟩
        have hp := phys_lt (offset + k') (by omega)
        have e0 : phys (offset + k') = 8 * place ((offset + k') / 8) := by rw [phys, h4]; rfl
        have em := mixOf_add (view st) input offset 0 k' (n + 1)
        rw [Nat.zero_add] at em
        rw [if_neg hz, quad_map _ (by omega) h4, Option.bind_some, rd64_ok _ _ (by rw [hs]; omega), Option.bind_some, hn,
          xorOutWordLoop_eq input n _ _ _ _ (by omega) (by omega) (by omega), mixWord_eq _ _ _ _ _ (by omega), ← e0,
          mixOf_view _ _ _ _ _ (by omega) (by omega), em, show k' + (n + 1) = length by omega]

end Avx2Asm
