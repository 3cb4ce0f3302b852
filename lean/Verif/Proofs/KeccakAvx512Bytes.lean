import Verif.Proofs.KeccakAvx512Rounds

/-!
The byte access functions of the AVX-512 implementation in assembly.
-/

namespace Avx512Asm

open KeccakP1600 (Lane Lanes wordOfBytes bytesOfWord bytesOfLanes)
open X86

/-- After `k` bytes have been written. -/
def Written (op : Op) (st0 data : Bytes) (offset k : Nat) (t : Bytes) : Prop :=
  t.length = 200 ∧ t = opAt op st0 offset (data.take k)

theorem Written.step {op : Op} {st0 data t : Bytes} {offset k : Nat} (h : Written op st0 data offset k t) (m : Nat)
    (hd : k + m ≤ data.length) : Written op st0 data offset (k + m) (opAt op t (offset + k) (Bytes.slice data k m)) := by
  obtain ⟨h2, h3⟩ := h
  refine ⟨by rw [length_opAt, h2], ?_⟩
  have e : offset + k = offset + (data.take k).length := by rw [List.length_take]; omega
  rw [h3, e, opAt_append]
  congr 1
  rw [List.take_add]; rfl

theorem lanesLoop_eq (op : Op) (st0 data : Bytes) (offset length : Nat) (h1 : offset + length ≤ 200) (hd : length ≤ data.length) :
    ∀ (fuel k : Nat) (t : Bytes), length - k < fuel → k ≤ length → Written op st0 data offset k t →
      ∃ t' k', lanesLoop op data fuel t k (offset + k) (length - k) = some (t', k', offset + k', sub64 (length - k') 8) ∧ length - k' < 8 ∧
        k' ≤ length ∧ Written op st0 data offset k' t' := by
  intro fuel
  induction fuel with
  | zero => intro k t hf; omega
  | succ fuel ih =>
    intro k t hf hk hw
    by_cases hc : length - k ≥ 8
    · have hs := hw.step 8 (by omega)
      obtain ⟨t', k', e1, e2⟩ := ih (k + 8) _ (by omega) (by omega) hs
      refine ⟨t', k', ?_, e2⟩
      rw [lanesLoop, if_pos hc, rd64_ok _ _ (by omega)]
      simp only [Option.bind_eq_bind, Option.bind_some]
      rw [rd64_ok _ _ (by rw [hw.1]; omega), Option.bind_some, wr64_op op t data _ k (by rw [hw.1]; omega) (by omega), Option.bind_some,
        sub64_eq hc (by omega), ← e1, Nat.add_assoc, Nat.sub_sub]
    · refine ⟨t, k, ?_, by omega, hk, hw⟩
      rw [lanesLoop, if_neg hc]

theorem written_zero (op : Op) (st data : Bytes) (hs : st.length = 200) (offset : Nat) : Written op st data offset 0 st :=
  ⟨hs, by rw [List.take_zero, opAt_nil]⟩

theorem head_len (offset length : Nat) : cmovae length (sub64 8 (offset % 8)) = min length (8 - offset % 8) := by
  rw [sub64_eq (by omega) (by decide), cmovae_eq]

theorem writeBytes_eq (op : Op) (st data : Bytes) (hs : st.length = 200) (offset length : Nat) (h1 : offset + length ≤ 200)
    (hd : length ≤ data.length) : ∃ t, writeBytes op st data offset length = some t ∧ Written op st data offset length t := by
  by_cases hl : length = 0
  · subst hl
    exact ⟨st, by rw [writeBytes]; rfl, written_zero op st data hs offset⟩
  · -- the first lane
    have head : ∃ t k, writeHead op st data offset (offset &&& 7) length = some (t, k, offset + k, length - k) ∧
        k ≤ length ∧ Written op st data offset k t := by
      rw [and7_eq, writeHead]
      by_cases h8 : offset % 8 = 0
      · exact ⟨st, 0, by rw [if_pos h8]; rfl, by omega, written_zero op st data hs offset⟩
      · rw [if_neg h8]
        simp only
        rw [head_len]
        obtain ⟨k, hk⟩ : ∃ k, min length (8 - offset % 8) = k + 1 := ⟨min length (8 - offset % 8) - 1, by omega⟩
        have hw := (written_zero op st data hs offset).step (k + 1) (by omega)
        rw [Nat.add_zero, Nat.zero_add] at hw
        rw [hk, bytesLoop_eq op data k _ st 0 _ (by omega) (by omega) (by omega) (by rw [hs]; omega), Option.bind_eq_bind, Option.bind_some]
        refine ⟨_, k + 1, ?_, by omega, hw⟩
        simp only
        rw [sub64_eq (by omega) (by omega), Nat.zero_add]
        rfl
    obtain ⟨t, k, e1, hk, hw⟩ := head
    obtain ⟨t', k', e2, h2, h3, hw'⟩ := lanesLoop_eq op st data offset length h1 hd (length - k + 1) k t (by omega) hk hw
    rw [writeBytes]
    simp only
    rw [if_neg hl, e1]
    simp only [Option.bind_eq_bind, Option.bind_some]
    rw [e2]
    simp only [Option.bind_some]
    rw [add_sub64 h2 (by decide)]
    by_cases hz : length - k' = 0
    · refine ⟨t', by rw [if_pos hz], ?_⟩
      rwa [show k' = length by omega] at hw'
    · obtain ⟨n, hn⟩ : ∃ n, length - k' = n + 1 := ⟨length - k' - 1, by omega⟩
      have hs' := hw'.step (n + 1) (by omega)
      rw [if_neg hz, hn, bytesLoop_eq op data n _ t' k' _ (by omega) (by omega) (by omega) (by rw [hw'.1]; omega), Option.bind_some]
      refine ⟨_, rfl, ?_⟩
      rwa [show k' + (n + 1) = length by omega] at hs'

/-! ### Zeroes -/

theorem zeroLanesLoop_eq (st0 : Bytes) (length : Nat) (h1 : length ≤ 200) :
    ∀ (fuel k : Nat) (t : Bytes), length - k < fuel → k ≤ length → Written .mov st0 (List.replicate length 0) 0 k t →
      ∃ t' k', zeroLanesLoop fuel t k (length - k) = some (t', k', sub64 (length - k') 8) ∧ length - k' < 8 ∧
        k' ≤ length ∧ Written .mov st0 (List.replicate length 0) 0 k' t' := by
  intro fuel
  induction fuel with
  | zero => intro k t hf; omega
  | succ fuel ih =>
    intro k t hf hk hw
    by_cases hc : length - k ≥ 8
    · have hs := hw.step 8 (by rw [List.length_replicate]; omega)
      obtain ⟨t', k', e1, e2⟩ := ih (k + 8) _ (by omega) (by omega) hs
      refine ⟨t', k', ?_, e2⟩
      have e3 : Bytes.slice (List.replicate length 0) k 8 = bytesOfWord 0 := by
        rw [Bytes.slice, List.drop_replicate, List.take_replicate, show min 8 (length - k) = 8 by omega]; rfl
      rw [zeroLanesLoop, if_pos hc]
      simp only [Option.bind_eq_bind]
      rw [wr64_ok _ _ _ (by rw [hw.1]; omega), Option.bind_some, sub64_eq hc (by omega), ← e1, e3, Nat.zero_add, Nat.sub_sub]
      rfl
    · refine ⟨t, k, ?_, by omega, hk, hw⟩
      rw [zeroLanesLoop, if_neg hc]

theorem overwriteWithZeroes_eq (st : Bytes) (hs : st.length = 200) (length : Nat) (h1 : length ≤ 200) :
    overwriteWithZeroes st length = some (Bytes.setAt st 0 (List.replicate length 0)) := by
  have fin : ∀ t, Written .mov st (List.replicate length 0) 0 length t → t = Bytes.setAt st 0 (List.replicate length 0) := by
    intro t h
    refine h.2.trans ?_
    rw [List.take_replicate, Nat.min_self]; rfl
  by_cases hl : length = 0
  · subst hl
    rw [← fin _ (written_zero .mov st _ hs 0), overwriteWithZeroes]; rfl
  · obtain ⟨t', k', e2, h2, h3, hw'⟩ := zeroLanesLoop_eq st length h1 (length + 1) 0 st (by omega) (by omega)
      (written_zero .mov st _ hs 0)
    rw [Nat.sub_zero] at e2
    rw [overwriteWithZeroes]
    simp only
    rw [if_neg hl, e2]
    simp only [Option.bind_eq_bind, Option.bind_some]
    rw [add_sub64 h2 (by decide)]
    by_cases hz : length - k' = 0
    · rw [show k' = length by omega] at hw'
      rw [if_pos hz, fin _ hw']
    · obtain ⟨n, hn⟩ : ∃ n, length - k' = n + 1 := ⟨length - k' - 1, by omega⟩
      have hs' := hw'.step (n + 1) (by rw [List.length_replicate]; omega)
      have e3 : Bytes.slice (List.replicate length 0) k' (n + 1) = (List.replicate (n + 1) 0 : Bytes) := by
        rw [Bytes.slice, List.drop_replicate, List.take_replicate, show min (n + 1) (length - k') = n + 1 by omega]
      rw [e3, Nat.zero_add, show k' + (n + 1) = length by omega] at hs'
      rw [if_neg hz, hn, zeroLoop_eq n _ t' _ (by omega) (by omega) (by rw [hw'.1]; omega), fin _ hs']

theorem addByte_eq (st : Bytes) (hs : st.length = 200) (b : Byte) (o : Nat) (h : o < 200) :
    addByte st b o = some (Bytes.xorAt st o [b]) := by
  rw [addByte, rd8_ok _ _ (by omega)]
  exact wr8_ok .xor st o b (by omega)

theorem init_eq (st : Bytes) (hs : st.length = 200) : Avx512Asm.init st = some (List.replicate 200 0) := by
  have hz : Plane512.wordsOf 8 (fun _ => 0) = List.replicate 64 0 := by decide
  have hw : bytesOfWord 0 = List.replicate 8 0 := rfl
  have e : ∀ (m a : Nat), a = m → a + 64 ≤ 200 → Plane512.maskStore (Bytes.setAt st 0 (List.replicate m 0)) a 0xFF (fun _ => 0) =
      some (Bytes.setAt st 0 (List.replicate (m + 64) 0)) := by
    intro m a ha hb
    have e1 := Plane512.store_ok 8 (by decide) (Bytes.setAt st 0 (List.replicate m 0)) a (fun _ => 0) (by rw [Bytes.length_setAt]; omega)
    have e2 : a = 0 + (List.replicate m (0 : Byte)).length := by rw [List.length_replicate]; omega
    rw [hz, e2, Bytes.setAt_append, List.replicate_append_replicate, ← e2] at e1
    exact e1
  unfold Avx512Asm.init
  simp only [Option.bind_eq_bind]
  have e0 := e 0 (0 * 64) rfl (by decide)
  rw [List.replicate_zero, Bytes.setAt_nil] at e0
  rw [e0, Option.bind_some, e _ (1 * 64) rfl (by decide), Option.bind_some, e _ (2 * 64) rfl (by decide), Option.bind_some,
    wr64_ok _ _ _ (by rw [Bytes.length_setAt]; omega), hw]
  have h6 : 3 * 64 = 0 + (List.replicate (0 + 64 + 64 + 64) (0 : Byte)).length := by rw [List.length_replicate]
  rw [h6, Bytes.setAt_append, List.replicate_append_replicate, Plane512.setAt_all _ _ (by rw [List.length_replicate, hs])]

/-! ### Extraction -/

theorem outLanesLoop_eq (st : Bytes) (hs : st.length = 200) (offset length : Nat) (h1 : offset + length ≤ 200) :
    ∀ (fuel k : Nat), length - k < fuel → k ≤ length → (length = k ∨ (offset + k) % 8 = 0) →
      ∃ k', outLanesLoop st fuel (offset + k) (length - k) (outOf st offset k) =
          some (offset + k', sub64 (length - k') 8, outOf st offset k') ∧ length - k' < 8 ∧
        k' ≤ length ∧ (length = k' ∨ (offset + k') % 8 = 0) := by
  intro fuel
  induction fuel with
  | zero => intro k hf; omega
  | succ fuel ih =>
    intro k hf hk h8
    by_cases hc : length - k ≥ 8
    · obtain ⟨k', e1, e2⟩ := ih (k + 8) (by omega) (by omega) (by omega)
      refine ⟨k', ?_, e2⟩
      rw [outLanesLoop, if_pos hc]
      simp only [Option.bind_eq_bind]
      rw [rd64_ok _ _ (by rw [hs]; omega), Option.bind_some, sub64_eq hc (by omega), ← e1, bytesOfWord_out,
        outOf_add, Nat.add_assoc, Nat.sub_sub]
    · exact ⟨k, by rw [outLanesLoop, if_neg hc], by omega, hk, h8⟩

theorem extractBytes_eq (st : Bytes) (hs : st.length = 200) (offset length : Nat) (h1 : offset + length ≤ 200) :
    extractBytes st offset length = some (Bytes.slice st offset length) := by
  rw [← outOf_eq _ _ _ (by rw [hs]; exact h1)]
  by_cases hl : length = 0
  · subst hl; rw [extractBytes]; rfl
  · have head : ∃ k, extractHead st offset (offset &&& 7) length = some (offset + k, length - k, outOf st offset k) ∧ k ≤ length ∧
        (length = k ∨ (offset + k) % 8 = 0) := by
      rw [and7_eq, extractHead]
      by_cases h8 : offset % 8 = 0
      · exact ⟨0, by rw [if_pos h8]; rfl, by omega, Or.inr h8⟩
      · rw [if_neg h8]
        simp only
        rw [head_len]
        obtain ⟨k, hk⟩ : ∃ k, min length (8 - offset % 8) = k + 1 := ⟨min length (8 - offset % 8) - 1, by omega⟩
        rw [hk, outLoop_eq st k _ _ _ (by omega) (by omega) (by rw [hs]; omega), Option.bind_eq_bind, Option.bind_some]
        refine ⟨k + 1, ?_, by omega, by omega⟩
        simp only
        rw [sub64_eq (by omega) (by omega), List.nil_append]
    obtain ⟨k, e1, hk, h8⟩ := head
    obtain ⟨k', e2, h2, h3, h4⟩ := outLanesLoop_eq st hs offset length h1 (length - k + 1) k (by omega) hk h8
    rw [extractBytes]
    simp only
    rw [if_neg hl, e1]
    simp only [Option.bind_eq_bind, Option.bind_some]
    rw [e2]
    simp only [Option.bind_some]
    rw [add_sub64 h2 (by decide)]
    by_cases hz : length - k' = 0
    · rw [if_pos hz, show k' = length by omega]
    · obtain ⟨n, hn⟩ : ∃ n, length - k' = n + 1 := ⟨length - k' - 1, by omega⟩
      rw [if_neg hz, rd64_ok _ _ (by rw [hs]; omega), Option.bind_some, hn,
        outWordLoop_eq n _ _ _ (by omega) (by omega), outWord_eq _ _ _ (by omega), outOf_add, show k' + (n + 1) = length by omega]

theorem xorOutLanesLoop_eq (st input : Bytes) (hs : st.length = 200) (offset length : Nat) (h1 : offset + length ≤ 200)
    (hd : length ≤ input.length) : ∀ (fuel k : Nat), length - k < fuel → k ≤ length → (length = k ∨ (offset + k) % 8 = 0) →
      ∃ k', xorOutLanesLoop st input fuel k (offset + k) (length - k) (mixOf st input offset 0 k) =
          some (k', offset + k', sub64 (length - k') 8, mixOf st input offset 0 k') ∧ length - k' < 8 ∧
        k' ≤ length ∧ (length = k' ∨ (offset + k') % 8 = 0) := by
  intro fuel
  induction fuel with
  | zero => intro k hf; omega
  | succ fuel ih =>
    intro k hf hk h8
    by_cases hc : length - k ≥ 8
    · obtain ⟨k', e1, e2⟩ := ih (k + 8) (by omega) (by omega) (by omega)
      refine ⟨k', ?_, e2⟩
      have em := mixOf_add st input offset 0 k 8
      rw [Nat.zero_add] at em
      rw [xorOutLanesLoop, if_pos hc]
      simp only [Option.bind_eq_bind]
      rw [rd64_ok _ _ (by rw [hs]; omega), Option.bind_some, rd64_ok _ _ (by omega), Option.bind_some, sub64_eq hc (by omega), ← e1,
        bytesOfWord_mix, em, Nat.add_assoc, Nat.sub_sub]
    · exact ⟨k, by rw [xorOutLanesLoop, if_neg hc], by omega, hk, h8⟩

theorem extractAndAddBytes_eq (st input : Bytes) (hs : st.length = 200) (offset length : Nat) (h1 : offset + length ≤ 200)
    (hd : length ≤ input.length) :
    extractAndAddBytes st input offset length = some (Bytes.xor (input.take length) (Bytes.slice st offset length)) := by
  rw [← mixOf_eq _ _ _ _ (by rw [hs]; exact h1) hd]
  by_cases hl : length = 0
  · subst hl; rw [extractAndAddBytes]; rfl
  · have head : ∃ k, extractAndAddHead st input offset (offset &&& 7) length =
        some (k, offset + k, length - k, mixOf st input offset 0 k) ∧ k ≤ length ∧ (length = k ∨ (offset + k) % 8 = 0) := by
      rw [and7_eq, extractAndAddHead]
      by_cases h8 : offset % 8 = 0
      · exact ⟨0, by rw [if_pos h8]; rfl, by omega, Or.inr h8⟩
      · rw [if_neg h8]
        simp only
        rw [head_len]
        obtain ⟨k, hk⟩ : ∃ k, min length (8 - offset % 8) = k + 1 := ⟨min length (8 - offset % 8) - 1, by omega⟩
        rw [hk, xorOutLoop_eq st input k _ _ _ _ (by omega) (by omega) (by rw [hs]; omega) (by omega), Option.bind_eq_bind, Option.bind_some]
        refine ⟨k + 1, ?_, by omega, by omega⟩
        simp only
        rw [sub64_eq (by omega) (by omega), List.nil_append, Nat.zero_add]
    obtain ⟨k, e1, hk, h8⟩ := head
    obtain ⟨k', e2, h2, h3, h4⟩ := xorOutLanesLoop_eq st input hs offset length h1 hd (length - k + 1) k (by omega) hk h8
    rw [extractAndAddBytes]
    simp only
    rw [if_neg hl, e1]
    simp only [Option.bind_eq_bind, Option.bind_some]
    rw [e2]
    simp only [Option.bind_some]
    rw [add_sub64 h2 (by decide)]
    by_cases hz : length - k' = 0
    · rw [if_pos hz, show k' = length by omega]
    · obtain ⟨n, hn⟩ : ∃ n, length - k' = n + 1 := ⟨length - k' - 1, by omega⟩
      have em := mixOf_add st input offset 0 k' (n + 1)
      rw [Nat.zero_add] at em
      rw [if_neg hz, rd64_ok _ _ (by rw [hs]; omega), Option.bind_some, hn,
        xorOutWordLoop_eq input n _ _ _ _ (by omega) (by omega) (by omega), mixWord_eq _ _ _ _ _ (by omega), em,
        show k' + (n + 1) = length by omega]

end Avx512Asm
