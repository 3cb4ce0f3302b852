import Verif.Proofs.Duplex
import Verif.Proofs.CShake

/-!
Helper lemmas: each duplex call of the model does what the specification says.
-/

namespace Duplex
open Spec.Duplex (getD_xorBits ext_getD getD_append getD_replicate getD_singleton getD_ge getD_take getD_drop
  getD_ofBytes getD_xorAt getD_setAt st Short pad101_short length_st block_eq trailing length_f piece)
open Spec (xorBits pad101)

variable {P : SnP}

theorem u32_eq {x : Nat} (h : x < 2 ^ 32) : u32 x = x := Nat.mod_eq_of_lt h

theorem sub32_eq {a b : Nat} (_ha : a < 2 ^ 32) (hb : b ≤ a) : sub32 a b = a - b := by
  unfold sub32; rw [if_pos hb]

/-- The instance represents the abstract state. -/
structure Rep (P : SnP) (f : Bits → Bits) (s : Spec.Duplex.State) (i : DuplexInst) : Prop where
  rate_ge : 3 ≤ i.rate
  rate_le : i.rate ≤ 8 * P.width
  short : Short i.rate s.hist
  len : i.state.length = P.width
  bits : ∀ j, (Bits.ofBytes i.state).getD j false =
    Bool.xor ((st (8 * P.width) f i.rate s.hist).getD j false) (s.queue.getD j false)
  inIdx : 8 * i.byteInputIndex = s.queue.length
  qle : s.queue.length + 2 ≤ i.rate
  outIdx : i.byteOutputIndex = s.out
  out_le : s.out ≤ (i.rate + 7) / 8

/-- The bounds that hold in every reachable instance. -/
structure Inv (P : SnP) (i : DuplexInst) : Prop where
  rate_ge : 3 ≤ i.rate
  rate_le : i.rate ≤ 8 * P.width
  len : i.state.length = P.width
  inIdx : 8 * i.byteInputIndex ≤ i.rate - 2
  outIdx : i.byteOutputIndex ≤ (i.rate + 7) / 8

theorem Rep.inv {f : Bits → Bits} {s : Spec.Duplex.State} {i : DuplexInst} (h : Rep P f s i) : Inv P i :=
  ⟨h.rate_ge, h.rate_le, h.len, by have := h.inIdx; have := h.qle; omega, by rw [h.outIdx]; exact h.out_le⟩

theorem bit_one (k m : Nat) (hk : k < 8) : (Bits.ofBytes [1#8 <<< k]).getD m false = decide (m = k) := by
  rw [getD_ofBytes]
  by_cases hm : m < 8
  · have h0 : m / 8 = 0 := by omega
    have h1 : m % 8 = m := by omega
    rw [h0, h1]
    have h : ∀ k m : Fin 8, ([1#8 <<< k.1].getD 0 0).getLsbD m.1 = decide (m.1 = k.1) := by decide
    exact h ⟨k, hk⟩ ⟨m, hm⟩
  · obtain ⟨q, hq⟩ : ∃ q, m / 8 = q + 1 := ⟨m / 8 - 1, by omega⟩
    rw [hq]
    have : ¬ m = k := by omega
    simp [this]

/-- The padded block, bit by bit. -/
theorem getD_padded (N : Bits) (a c r j : Nat) (h : N.length + 2 ≤ r) (ha : a = r - 2 - N.length) :
    (N ++ ([true] ++ List.replicate a false ++ [true]) ++ List.replicate c false).getD j false =
      Bool.xor (Bool.xor (N.getD j false) (decide (j = N.length))) (decide (j = r - 1)) := by
  simp only [getD_append, getD_replicate, getD_singleton, List.length_append, List.length_replicate,
    List.length_cons, List.length_nil]
  by_cases h1 : j < N.length
  · have h2 : ¬ j = N.length := by omega
    have h3 : ¬ j = r - 1 := by omega
    have h4 : j < N.length + (0 + 1 + a + (0 + 1)) := by omega
    simp only [h1, h2, h3, h4, if_true, decide_false, Bool.xor_false]
  · rw [getD_ge (a := N) (by omega)]
    by_cases h2 : j = N.length
    · have h3 : ¬ j = r - 1 := by omega
      have h4 : j < N.length + (0 + 1 + a + (0 + 1)) := by omega
      have h7 : j - N.length = 0 := by omega
      simp only [h1, h3, h4, h7, if_true, if_false, decide_false, Bool.xor_false, decide_eq_true h2,
        Bool.false_xor]
      rw [if_pos (by omega), if_pos (by omega)]
    · by_cases h3 : j = r - 1
      · have h4 : j < N.length + (0 + 1 + a + (0 + 1)) := by omega
        have h5 : ¬ j - N.length < 0 + 1 + a := by omega
        have h6 : j - N.length - (0 + 1 + a) = 0 := by omega
        simp only [h1, h2, h4, h5, h6, if_true, if_false, decide_false, decide_eq_true h3, Bool.false_xor]
      · simp only [h1, h2, h3, if_false, decide_false, Bool.xor_false]
        by_cases h4 : j < N.length + (0 + 1 + a + (0 + 1))
        · have h5 : j - N.length < 0 + 1 + a := by omega
          have h6 : ¬ j - N.length < 0 + 1 := by omega
          simp only [h4, h5, h6, if_true, if_false]
        · simp only [h4, if_false]

/-- Queued bits, new bytes and the delimited last bits. -/
theorem getD_delim (q S l : Bits) (z j : Nat) :
    Bool.xor (q.getD j false)
      (if q.length ≤ j then (S ++ (l ++ [true] ++ List.replicate z false)).getD (j - q.length) false else false) =
    Bool.xor ((q ++ S ++ l).getD j false) (decide (j = (q ++ S ++ l).length)) := by
  simp only [getD_append, getD_replicate, getD_singleton, List.length_append,
    List.length_cons, List.length_nil]
  by_cases h1 : j < q.length
  · have h2 : ¬ q.length ≤ j := by omega
    have h3 : j < q.length + S.length := by omega
    have h4 : ¬ j = q.length + S.length + l.length := by omega
    simp only [h1, h2, h3, h4, if_true, if_false, decide_false]
  · have h2 : q.length ≤ j := by omega
    rw [getD_ge h2]
    by_cases h3 : j < q.length + S.length
    · have h4 : ¬ j = q.length + S.length + l.length := by omega
      have h5 : j - q.length < S.length := by omega
      simp only [h1, h2, h3, h4, h5, if_true, if_false, decide_false, Bool.false_xor, Bool.xor_false]
    · have h5 : ¬ j - q.length < S.length := by omega
      have e1 : j - q.length - S.length = j - (q.length + S.length) := by omega
      simp only [h2, h3, h5, e1, if_true, if_false, Bool.false_xor]
      by_cases h6 : j < q.length + S.length + l.length
      · have h7 : j - (q.length + S.length) < l.length + (0 + 1) := by omega
        have h8 : j - (q.length + S.length) < l.length := by omega
        have h4 : ¬ j = q.length + S.length + l.length := by omega
        simp only [h7, h8, h4, if_true, decide_false, Bool.xor_false]
      · rw [getD_ge (a := l) (by omega)]
        by_cases h4 : j = q.length + S.length + l.length
        · have h7 : j - (q.length + S.length) < l.length + (0 + 1) := by omega
          have h8 : ¬ j - (q.length + S.length) < l.length := by omega
          have h9 : j - (q.length + S.length) - l.length = 0 := by omega
          simp only [h7, h8, h9, if_true, if_false, decide_eq_true h4, Bool.false_xor]
        · have h7 : ¬ j - (q.length + S.length) < l.length + (0 + 1) := by omega
          simp only [h7, h4, if_false, decide_false, Bool.xor_false]

/-! ### Masking -/

theorem mask_pow (k : Nat) (hk : k < 8) : (BitVec.ofNat 8 (2 ^ k) : Byte) - 1 = (1#8 <<< k) - 1 := by
  have h : ∀ k : Fin 8, (BitVec.ofNat 8 (2 ^ k.1) : Byte) - 1 = (1#8 <<< k.1) - 1 := by decide
  exact h ⟨k, hk⟩

theorem maskAt_eq (X : Bytes) (n r : Nat) (hX : X.length = n) (hn : 0 < n) (hn32 : n < 2 ^ 32) :
    ∃ Y, maskAt X n r = some Y ∧
      Bits.ofBytes Y = (Bits.ofBytes X).take (8 * (n - 1) + r % 8) ++ List.replicate (8 - r % 8) false := by
  have hlt : n - 1 < X.length := by omega
  unfold maskAt
  rw [sub32_eq hn32 hn, List.getElem?_eq_getElem hlt]
  refine ⟨_, rfl, ?_⟩
  have hend : X.drop (n - 1 + 1) = [] := List.drop_eq_nil_of_le (by omega)
  have hX' : X = X.take (n - 1) ++ [X[n - 1]] := by
    conv_lhs => rw [← List.take_append_drop (n - 1) X, List.drop_eq_getElem_cons hlt, hend]
  rw [List.set_eq_take_append_cons_drop, if_pos hlt, hend, Bits.ofBytes_append, Bits.ofBytes_cons,
    Bits.ofBytes_nil, List.append_nil, mask_pow _ (Nat.mod_lt _ (by omega)),
    SP800185.maskByte_bits _ _ (Nat.mod_lt _ (by omega))]
  have e : (Bits.ofBytes X).take (8 * (n - 1) + r % 8) =
      Bits.ofBytes (X.take (n - 1)) ++ (Bits.ofByte X[n - 1]).take (r % 8) := by
    conv_lhs => rw [hX']
    rw [Bits.ofBytes_append, List.take_append]
    have h1 : (Bits.ofBytes (X.take (n - 1))).length = 8 * (n - 1) := by
      rw [Bits.length_ofBytes, List.length_take]; omega
    rw [List.take_of_length_le (by omega), h1, Nat.add_sub_cancel_left, Bits.ofBytes_cons, Bits.ofBytes_nil,
      List.append_nil]
  rw [e, List.append_assoc]

/-- What is released of `n` bytes extracted from byte `o` on. -/
theorem release (X : Bytes) (o n r : Nat) (hX : X.length = n) (hr : r + 7 < 2 ^ 32) (ho : o + n ≤ (r + 7) / 8)
    (hn : n = 0 → 8 * o ≤ r) :
    ∃ Y, (if u32 ((o + n) * 8) > r then maskAt X n r else some X) = some Y ∧
      Bits.ofBytes Y = (Bits.ofBytes X).take (r - 8 * o) ++ List.replicate (8 * n - (r - 8 * o)) false := by
  rw [u32_eq (by omega)]
  by_cases h : (o + n) * 8 > r
  · rw [if_pos h]
    have hn0 : 0 < n := by
      rcases Nat.eq_zero_or_pos n with h0 | h0
      · have := hn h0; omega
      · exact h0
    obtain ⟨Y, h1, h2⟩ := maskAt_eq X n r hX hn0 (by omega)
    refine ⟨Y, h1, ?_⟩
    rw [h2]
    have e1 : 8 * (n - 1) + r % 8 = r - 8 * o := by omega
    have e2 : 8 - r % 8 = 8 * n - (r - 8 * o) := by omega
    rw [e1, e2]
  · rw [if_neg h]
    refine ⟨X, rfl, ?_⟩
    have e1 : 8 * n - (r - 8 * o) = 0 := by omega
    rw [e1, List.take_of_length_le (by rw [Bits.length_ofBytes]; omega)]
    simp

section
variable {f : Bits → Bits} {s : Spec.Duplex.State} {i : DuplexInst} (hw : P.width ≤ 2 ^ 20)
include hw

theorem rhoMax_eq (h : Inv P i) : rhoMax i = i.rate - 2 := by
  have := h.rate_ge; have := h.rate_le
  exact sub32_eq (by omega) (by omega)

theorem rateBytes_eq (h : Inv P i) : rateBytes i = (i.rate + 7) / 8 := by
  have := h.rate_ge; have := h.rate_le
  unfold rateBytes
  rw [u32_eq (by omega)]

theorem feedBad_inv (h : Inv P i) (n : Nat) (_hn : n < 2 ^ 32) :
    feedBad i n = decide (¬ 8 * i.byteInputIndex + 8 * n ≤ i.rate - 2) := by
  have h1 := h.rate_ge; have h2 := h.rate_le; have h3 := h.inIdx
  unfold feedBad
  rw [rhoMax_eq hw h]
  by_cases h5 : n > (i.rate - 2) / 8
  · have : ¬ 8 * i.byteInputIndex + 8 * n ≤ i.rate - 2 := by omega
    simp [h5, this]
  · rw [u32_eq (x := i.byteInputIndex + n) (by omega), u32_eq (by omega)]
    simp only [h5, decide_false, Bool.false_or]
    congr 1
    simp only [eq_iff_iff]
    omega

theorem feedBad_eq (h : Rep P f s i) (n : Nat) (hn : n < 2 ^ 32) :
    feedBad i n = decide (¬ s.queue.length + 8 * n ≤ i.rate - 2) := by
  rw [feedBad_inv hw h.inv n hn, h.inIdx]

/-- Queueing bits that are added to the state. -/
theorem rep_enqueue (h : Rep P f s i) (n : Nat) (state' : Bytes) (x : Bits) (hx : x.length = 8 * n)
    (hfit : s.queue.length + 8 * n ≤ i.rate - 2) (hlen : state'.length = P.width)
    (hb : ∀ j, (Bits.ofBytes state').getD j false = Bool.xor ((Bits.ofBytes i.state).getD j false)
      (if s.queue.length ≤ j then x.getD (j - s.queue.length) false else false)) :
    Rep P f { s with queue := s.queue ++ x }
      { i with state := state', byteInputIndex := u32 (i.byteInputIndex + n) } := by
  have h1 := h.rate_ge; have h2 := h.rate_le; have h3 := h.inIdx; have h4 := h.qle
  refine ⟨h1, h2, h.short, hlen, ?_, ?_, ?_, h.outIdx, h.out_le⟩
  · intro j
    simp only
    rw [hb, h.bits, getD_append, Bool.xor_assoc]
    congr 1
    by_cases hj : j < s.queue.length
    · rw [if_pos hj, if_neg (by omega), Bool.xor_false]
    · rw [if_neg hj, if_pos (by omega), getD_ge (a := s.queue) (by omega), Bool.false_xor]
  · simp only
    rw [u32_eq (by omega), List.length_append]; omega
  · simp only [List.length_append]; omega

theorem feed_step (h : Rep P f s i) (x : Bytes) (hx : x.length < 2 ^ 32) :
    ∃ i', feedPartialInput i x = some ((Spec.Duplex.enqueue i.rate s (Bits.ofBytes x)).1, i') ∧
      Rep P f (Spec.Duplex.enqueue i.rate s (Bits.ofBytes x)).2.1 i' ∧ i'.rate = i.rate := by
  have h2 := h.rate_le; have h3 := h.inIdx; have h4 := h.qle; have h5 := h.len
  unfold feedPartialInput Spec.Duplex.enqueue
  rw [feedBad_eq hw h _ hx, Bits.length_ofBytes]
  by_cases hfit : s.queue.length + 8 * x.length ≤ i.rate - 2
  · simp only [hfit, not_true_eq_false, decide_false, if_true, Bool.false_eq_true, if_false, SnP.addBytes]
    rw [if_pos (by omega)]
    refine ⟨_, rfl, rep_enqueue hw h _ _ _ (Bits.length_ofBytes _) hfit (by simpa using h5) ?_, rfl⟩
    intro j
    rw [getD_xorAt _ _ _ (by omega), h3]
  · simp only [hfit, not_false_eq_true, decide_true, if_true, if_false]
    exact ⟨i, rfl, h, rfl⟩

theorem zeroes_step (h : Rep P f s i) (n : Nat) (hn : n < 2 ^ 32) :
    ∃ i', feedZeroes i n = ((Spec.Duplex.enqueue i.rate s (List.replicate (8 * n) false)).1, i') ∧
      Rep P f (Spec.Duplex.enqueue i.rate s (List.replicate (8 * n) false)).2.1 i' ∧ i'.rate = i.rate := by
  unfold feedZeroes Spec.Duplex.enqueue
  rw [feedBad_eq hw h _ hn, List.length_replicate]
  by_cases hfit : s.queue.length + 8 * n ≤ i.rate - 2
  · simp only [hfit, not_true_eq_false, decide_false, if_true, Bool.false_eq_true, if_false]
    refine ⟨_, rfl, rep_enqueue hw h _ i.state _ (List.length_replicate ..) hfit h.len ?_, rfl⟩
    intro j
    rw [getD_replicate]
    simp
  · simp only [hfit, not_false_eq_true, decide_true, if_true, if_false]
    exact ⟨i, rfl, h, rfl⟩

variable (hP : P.Valid)
  (hf : ∀ s : Bytes, s.length = P.width → f (Bits.ofBytes s) = Bits.ofBytes (P.permute s))
include hP hf

omit hw in
theorem block_getD (h : Rep P f s i) (j : Nat) (hj : j < i.rate) :
    (Spec.Duplex.block (8 * P.width) f i.rate s.hist).getD j false =
      (st (8 * P.width) f i.rate s.hist).getD j false := by
  have h1 := h.rate_ge
  rw [block_eq (by omega) h.rate_le (length_f hP hf) h.short, getD_take, if_pos hj]

omit hw in
theorem length_block (h : Rep P f s i) :
    (Spec.Duplex.block (8 * P.width) f i.rate s.hist).length = i.rate := by
  have h1 := h.rate_ge; have h2 := h.rate_le
  rw [block_eq (by omega) h.rate_le (length_f hP hf) h.short, List.length_take,
    length_st h.rate_le (length_f hP hf) h.short]
  omega

theorem overwrite_step (h : Rep P f s i) (x : Bytes) (hx : x.length < 2 ^ 32) :
    ∃ i', overwritePartialInput i x =
        some ((Spec.Duplex.step (8 * P.width) f i.rate s (.overwrite x)).1, i') ∧
      Rep P f (Spec.Duplex.step (8 * P.width) f i.rate s (.overwrite x)).2.1 i' ∧ i'.rate = i.rate := by
  have h2 := h.rate_le; have h3 := h.inIdx; have h4 := h.qle; have h5 := h.len
  have hbl := length_block hP hf h
  unfold overwritePartialInput Spec.Duplex.step
  simp only
  rw [feedBad_eq hw h _ hx]
  by_cases hfit : s.queue.length + 8 * x.length ≤ i.rate - 2
  · have hlen : (xorBits (Bits.ofBytes x) (((Spec.Duplex.block (8 * P.width) f i.rate s.hist).drop
        s.queue.length).take (8 * x.length))).length = 8 * x.length := by
      rw [Spec.Duplex.length_xorBits, Bits.length_ofBytes, List.length_take, List.length_drop, hbl]; omega
    simp only [hfit, not_true_eq_false, decide_false, if_true, Bool.false_eq_true, if_false, SnP.overwriteBytes]
    rw [if_pos (by omega)]
    unfold Spec.Duplex.enqueue
    rw [hlen]
    simp only [hfit, if_true]
    refine ⟨_, rfl, rep_enqueue hw h _ _ _ hlen hfit (by simpa using h5) ?_, rfl⟩
    intro j
    rw [getD_setAt _ _ _ (by omega), h3]
    have e8 : 8 * (i.byteInputIndex + x.length) = s.queue.length + 8 * x.length := by omega
    rw [e8]
    by_cases hj : s.queue.length ≤ j
    · by_cases hj2 : j < s.queue.length + 8 * x.length
      · rw [if_pos ⟨hj, hj2⟩, if_pos hj, getD_xorBits, getD_take, if_pos (by omega), getD_drop, h.bits,
          Nat.add_sub_cancel' hj, block_getD hP hf h j (by omega), getD_ge (a := s.queue) hj, Bool.xor_false]
        · cases (Bits.ofBytes x).getD (j - s.queue.length) false <;>
            cases (st (8 * P.width) f i.rate s.hist).getD j false <;> rfl
        · rw [Bits.length_ofBytes, List.length_take, List.length_drop, hbl]; omega
      · rw [if_neg (by omega), if_pos hj, getD_ge (a := xorBits _ _) (by rw [hlen]; omega), Bool.xor_false]
    · rw [if_neg (by omega), if_neg hj, Bool.xor_false]
  · simp only [hfit, not_false_eq_true, decide_true, if_true, if_false]
    exact ⟨i, rfl, h, rfl⟩

theorem overwriteZeroes_step (h : Rep P f s i) (n : Nat) (hn : n < 2 ^ 32) :
    ∃ i', overwriteWithZeroes i n =
        some ((Spec.Duplex.step (8 * P.width) f i.rate s (.overwriteZeroes n)).1, i') ∧
      Rep P f (Spec.Duplex.step (8 * P.width) f i.rate s (.overwriteZeroes n)).2.1 i' ∧ i'.rate = i.rate := by
  have h1 := h.rate_ge; have h2 := h.rate_le; have h3 := h.inIdx; have h4 := h.qle; have h5 := h.len
  have hbl := length_block hP hf h
  unfold overwriteWithZeroes Spec.Duplex.step
  simp only
  rw [rhoMax_eq hw h.inv]
  by_cases hq : s.queue = []
  · rw [hq] at h3
    simp only [List.length_nil] at h3
    have h0 : i.byteInputIndex = 0 := by omega
    by_cases hfit : 8 * n ≤ i.rate - 2
    · have c1 : ¬ n > (i.rate - 2) / 8 := by omega
      have c2 : ¬ u32 (n * 8) > i.rate - 2 := by rw [u32_eq (by omega)]; omega
      have hlen : ((Spec.Duplex.block (8 * P.width) f i.rate s.hist).take (8 * n)).length = 8 * n := by
        rw [List.length_take, hbl]; omega
      simp only [c1, c2, h0, ne_eq, not_true_eq_false, or_self, if_false, hq, hfit, and_self, if_true,
        SnP.overwriteWithZeroes]
      rw [if_pos (by omega)]
      unfold Spec.Duplex.enqueue
      rw [hlen, hq]
      simp only [List.length_nil, Nat.zero_add, hfit, if_true]
      have := rep_enqueue hw h n (Bytes.setAt i.state 0 (Bytes.zeros n)) _ hlen (by rw [hq]; simpa using hfit)
        (by simpa using h5) (by
          intro j
          rw [hq, getD_setAt _ _ _ (by simp; omega)]
          simp only [List.length_nil, Nat.zero_le, if_true, Nat.sub_zero, Nat.mul_zero, true_and, Nat.zero_add,
            Bytes.length_zeros]
          rw [Bits.ofBytes_zeros, getD_replicate, getD_take, h.bits, hq]
          by_cases hj : j < 8 * n
          · rw [if_pos hj, if_pos hj, block_getD hP hf h j (by omega)]
            simp
          · rw [if_neg hj, if_neg hj, Bool.xor_false])
      rw [h0, Nat.zero_add, u32_eq hn, hq] at this
      exact ⟨_, rfl, this, rfl⟩
    · have hno : ¬ (s.queue = [] ∧ 8 * n ≤ i.rate - 2) := fun hh => hfit hh.2
      rw [if_neg hno]
      by_cases c1 : n > (i.rate - 2) / 8
      · rw [if_pos c1]; exact ⟨i, rfl, h, rfl⟩
      · exfalso; omega
  · have hno : ¬ (s.queue = [] ∧ 8 * n ≤ i.rate - 2) := fun hh => hq hh.1
    have h0 : i.byteInputIndex ≠ 0 := by
      intro h0
      apply hq
      exact List.eq_nil_of_length_eq_zero (by omega)
    rw [if_neg hno]
    by_cases c1 : n > (i.rate - 2) / 8
    · rw [if_pos c1]; exact ⟨i, rfl, h, rfl⟩
    · rw [if_neg c1, if_pos (Or.inl h0)]; exact ⟨i, rfl, h, rfl⟩

omit hP hf in
theorem duplexingBad_inv (h : Inv P i) (σ : Bytes) (hσ : σ.length < 2 ^ 32) (n : Nat) (d : Byte)
    (hpre : 8 * i.byteInputIndex + 8 * σ.length ≤ i.rate - 2 →
      i.byteInputIndex = 0 ∨ 8 * i.byteInputIndex + 8 * σ.length + (trailing d).length ≤ i.rate - 2) :
    duplexingBad i σ.length n d = decide (¬ (d ≠ 0 ∧
      8 * i.byteInputIndex + 8 * σ.length + (trailing d).length ≤ i.rate - 2 ∧ n ≤ (i.rate + 7) / 8)) := by
  have h1 := h.rate_ge; have h2 := h.rate_le; have h3 := h.inIdx
  unfold duplexingBad
  rw [rhoMax_eq hw h, rateBytes_eq hw h]
  by_cases hd : d = 0
  · simp [hd]
  have hd0 : d.toNat ≠ 0 := by
    intro h'; exact hd (BitVec.eq_of_toNat_eq (by simpa using h'))
  have hlog : Nat.log2 d.toNat ≤ 7 := by
    have := (Nat.log2_lt hd0 (k := 8)).2 d.isLt
    omega
  have htl : (trailing d).length = Nat.log2 d.toNat := by
    unfold trailing
    rw [List.length_take, Bits.length_ofByte]; omega
  simp only [hd, decide_false, Bool.false_or, ne_eq, not_false_eq_true, true_and]
  by_cases h5 : σ.length > (i.rate - 2) / 8
  · have : ¬ 8 * i.byteInputIndex + 8 * σ.length + (trailing d).length ≤ i.rate - 2 := by omega
    simp [h5, this]
  by_cases h6 : 8 * i.byteInputIndex + 8 * σ.length ≤ i.rate - 2
  · rw [u32_eq (x := i.byteInputIndex + σ.length) (by omega), u32_eq (x := (i.byteInputIndex + σ.length) * 8) (by omega),
      u32_eq (x := σ.length * 8) (by omega), sub32_eq (by omega) (by omega)]
    have h7 : ¬ (i.byteInputIndex + σ.length) * 8 > i.rate - 2 := by omega
    simp only [h5, h7, decide_false, Bool.false_or]
    have key : (decide (i.rate - 2 - σ.length * 8 < 7) && decide (d.toNat ≥ 2 ^ (i.rate - 2 - σ.length * 8 + 1))) =
        decide (¬ 8 * i.byteInputIndex + 8 * σ.length + (trailing d).length ≤ i.rate - 2) := by
      rw [htl]
      have hiff : d.toNat ≥ 2 ^ (i.rate - 2 - σ.length * 8 + 1) ↔ i.rate - 2 - σ.length * 8 < Nat.log2 d.toNat := by
        constructor
        · intro hge
          exact (Nat.le_log2 hd0).2 hge
        · intro hlt
          exact (Nat.le_log2 hd0).1 hlt
      rw [Bool.eq_iff_iff]
      simp only [Bool.and_eq_true, decide_eq_true_eq, hiff]
      rcases hpre h6 with hq | hq
      · rw [hq]; omega
      · rw [htl] at hq; omega
    rw [key, Bool.eq_iff_iff]
    simp only [Bool.or_eq_true, decide_eq_true_eq]
    omega
  · have h7 : u32 (u32 (i.byteInputIndex + σ.length) * 8) > i.rate - 2 := by
      rw [u32_eq (x := i.byteInputIndex + σ.length) (by omega), u32_eq (by omega)]; omega
    have h8 : ¬ 8 * i.byteInputIndex + 8 * σ.length + (trailing d).length ≤ i.rate - 2 := by omega
    simp [h7, h8]

omit hP hf in
theorem duplexingBad_eq (h : Rep P f s i) (σ : Bytes) (hσ : σ.length < 2 ^ 32) (n : Nat) (d : Byte)
    (hpre : Spec.Duplex.Pre i.rate s (.duplexing σ n d)) :
    duplexingBad i σ.length n d = decide (¬ (d ≠ 0 ∧
      s.queue.length + 8 * σ.length + (trailing d).length ≤ i.rate - 2 ∧ n ≤ (i.rate + 7) / 8)) := by
  rw [duplexingBad_inv hw h.inv σ hσ n d ?_, h.inIdx]
  rw [h.inIdx]
  intro h6
  rcases hpre h6 with hq | hq
  · left
    have := h.inIdx
    rw [hq] at this
    simpa using this
  · exact Or.inr hq

theorem duplexing_step (h : Rep P f s i) (σ : Bytes) (hσ : σ.length < 2 ^ 32) (n : Nat) (d : Byte)
    (hpre : Spec.Duplex.Pre i.rate s (.duplexing σ n d)) :
    ∃ i' out, duplexing P i σ n d =
        some ((Spec.Duplex.step (8 * P.width) f i.rate s (.duplexing σ n d)).1, i', out) ∧
      Rep P f (Spec.Duplex.step (8 * P.width) f i.rate s (.duplexing σ n d)).2.1 i' ∧ i'.rate = i.rate ∧
      Bits.ofBytes out = (Spec.Duplex.step (8 * P.width) f i.rate s (.duplexing σ n d)).2.2 := by
  have h1 := h.rate_ge; have h2 := h.rate_le; have h3 := h.inIdx; have h4 := h.qle; have h5 := h.len
  unfold duplexing Spec.Duplex.step
  simp only
  rw [duplexingBad_eq hw h σ hσ n d hpre]
  by_cases hok : d ≠ 0 ∧ s.queue.length + 8 * σ.length + (trailing d).length ≤ i.rate - 2 ∧ n ≤ (i.rate + 7) / 8
  · obtain ⟨hd, hfit, hn⟩ := hok
    obtain ⟨l, hl⟩ := Bits.exists_delimitedBy d hd
    have htr : l = trailing d := by
      have hd0 : d.toNat ≠ 0 := by
        intro h'; exact hd (BitVec.eq_of_toNat_eq (by simpa using h'))
      have hdb := hl.ofByte
      have hlog : Nat.log2 d.toNat = l.length := by
        have ha := Bits.toNat_lt l
        rw [hl.2]
        apply Nat.log2_eq_iff (by have := Nat.two_pow_pos l.length; omega) |>.2
        rw [Nat.pow_succ]; omega
      unfold trailing
      rw [hlog, hdb, List.append_assoc, List.take_left']
      rfl
    rw [← htr] at hfit
    simp only [hd, hn, ← htr, hfit, ne_eq, not_false_eq_true, and_self, not_true_eq_false, decide_false,
      Bool.false_eq_true, if_false, if_true]
    have hsb : ((i.rate - 1) / 8) < P.width := by omega
    simp only [SnP.addBytes, SnP.addByte, SnP.extractBytes]
    rw [if_pos (by omega), u32_eq (x := i.byteInputIndex + σ.length) (by omega),
      sub32_eq (a := i.rate) (b := 1) (by omega) (by omega)]
    simp only [Option.bind_eq_bind, Option.bind_some, Bytes.length_xorAt]
    rw [if_pos (by omega)]
    simp only [Option.bind_some, Bytes.length_xorAt]
    rw [if_pos (by omega)]
    simp only [Option.bind_some]
    rw [Bytes.xorAt_append]
    -- the state before the permutation
    set s2 := Bytes.xorAt (Bytes.xorAt i.state i.byteInputIndex (σ ++ [d])) ((i.rate - 1) / 8)
      [1#8 <<< ((i.rate - 1) % 8)] with hs2
    have hs2len : s2.length = P.width := by simp [hs2, h5]
    have hplen : (P.permute s2).length = P.width := hP.permute_len _ hs2len
    have hbits : Bits.ofBytes s2 = xorBits (st (8 * P.width) f i.rate s.hist)
        (((s.queue ++ Bits.ofBytes σ ++ l) ++ pad101 i.rate (s.queue ++ Bits.ofBytes σ ++ l).length) ++
          List.replicate (8 * P.width - i.rate) false) := by
      have hNlen : (s.queue ++ Bits.ofBytes σ ++ l).length + 2 ≤ i.rate := by
        simp only [List.length_append, Bits.length_ofBytes]; omega
      have hstl := length_st h.rate_le (length_f hP hf) h.short
      have hbl := Spec.Duplex.length_block hNlen
      apply ext_getD
      · rw [Bits.length_ofBytes, Spec.Duplex.length_xorBits, hstl, List.length_append, hbl, List.length_replicate,
          hs2len]
        omega
      · intro j _
        rw [getD_xorBits (by rw [hstl, List.length_append, hbl, List.length_replicate]; omega),
          pad101_short hNlen, getD_padded _ _ _ i.rate j hNlen rfl, hs2,
          getD_xorAt _ _ _ (by simp; omega), getD_xorAt _ _ _ (by simp; omega), h3, h.bits]
        have hd' := getD_delim s.queue (Bits.ofBytes σ) l (7 - l.length) j
        rw [← hl.ofByte] at hd'
        have e : Bits.ofBytes (σ ++ [d]) = Bits.ofBytes σ ++ Bits.ofByte d := by simp
        rw [e, Bool.xor_assoc, Bool.xor_assoc, ← Bool.xor_assoc (List.getD s.queue j false), hd']
        congr 2
        by_cases hj : 8 * ((i.rate - 1) / 8) ≤ j
        · rw [if_pos hj, bit_one _ _ (Nat.mod_lt _ (by omega))]
          congr 1
          simp only [eq_iff_iff]; omega
        · rw [if_neg hj]
          symm
          rw [decide_eq_false_iff_not]; omega
    have hst : Bits.ofBytes (P.permute s2) = st (8 * P.width) f i.rate ((s.queue ++ Bits.ofBytes σ ++ l) :: s.hist) := by
      rw [← hf s2 hs2len, hbits]; rfl
    rw [if_pos (by omega)]
    simp only [Option.bind_some]
    have hX : (Bytes.slice (P.permute s2) 0 n).length = n := by
      rw [Bytes.length_slice_of_le (by omega)]
    obtain ⟨Y, hY1, hY2⟩ := release (Bytes.slice (P.permute s2) 0 n) 0 n i.rate hX (by omega) (by omega)
      (fun _ => by omega)
    rw [Nat.zero_add] at hY1
    have hshort : Short i.rate ((s.queue ++ Bits.ofBytes σ ++ l) :: s.hist) := by
      intro x hx
      rcases List.mem_cons.1 hx with rfl | hx
      · simp only [List.length_append, Bits.length_ofBytes]; omega
      · exact h.short x hx
    refine ⟨{ i with state := P.permute s2, byteInputIndex := 0, byteOutputIndex := n }, Y, ?_,
      ⟨h1, h2, hshort, hplen, ?_, rfl, by simp; omega, rfl, hn⟩, rfl, ?_⟩
    · split at hY1
      · rw [if_pos ‹_›, hY1]; rfl
      · rw [if_neg ‹_›, Option.some.inj hY1]
    · intro j
      simp only
      rw [hst]; simp
    · rw [hY2, block_eq (by omega) h2 (length_f hP hf) hshort, ← hst]
      unfold piece
      simp only [Nat.mul_zero, List.drop_zero, Nat.sub_zero, Bytes.slice]
      rw [← Bits.take_ofBytes, List.take_take, List.take_take, Nat.min_comm]
      congr 2
      rw [List.length_take, Bits.length_ofBytes, hplen]
      omega
  · simp only [hok, not_false_eq_true, decide_true, if_true, if_false]
    exact ⟨i, [], rfl, h, rfl, rfl⟩

omit hP hf in
theorem further_end (h : Rep P f s i) (X : Bytes) (n : Nat) (hX : X.length = n)
    (hfit : s.out + n ≤ (i.rate + 7) / 8) (hn : n = 0 → 8 * s.out ≤ i.rate) :
    ∃ i' Y, furtherEnd i X n = some (0, i', Y) ∧ Rep P f { s with out := s.out + n } i' ∧ i'.rate = i.rate ∧
      Bits.ofBytes Y = (Bits.ofBytes X).take (i.rate - 8 * s.out) ++
        List.replicate (8 * n - (i.rate - 8 * s.out)) false := by
  have h1 := h.rate_ge; have h2 := h.rate_le; have h3 := h.outIdx
  obtain ⟨Y, hY1, hY2⟩ := release X s.out n i.rate hX (by omega) hfit hn
  unfold furtherEnd
  rw [h3, u32_eq (x := s.out + n) (by omega)]
  simp only
  refine ⟨{ i with byteOutputIndex := s.out + n }, Y, ?_, ?_⟩
  · split at hY1
    · rw [if_pos ‹_›, hY1]; rfl
    · rw [if_neg ‹_›, Option.some.inj hY1]; rfl
  exact ⟨⟨h1, h2, h.short, h.len, h.bits, h.inIdx, h.qle, rfl, hfit⟩, rfl, hY2⟩

theorem further_step (h : Rep P f s i) (n : Nat) (hn : n < 2 ^ 32)
    (hpre : Spec.Duplex.Pre i.rate s (.further n)) :
    ∃ i' out, getFurtherOutput i n =
        some ((Spec.Duplex.step (8 * P.width) f i.rate s (.further n)).1, i', out) ∧
      Rep P f (Spec.Duplex.step (8 * P.width) f i.rate s (.further n)).2.1 i' ∧ i'.rate = i.rate ∧
      Bits.ofBytes out = (Spec.Duplex.step (8 * P.width) f i.rate s (.further n)).2.2 := by
  have h1 := h.rate_ge; have h2 := h.rate_le; have h3 := h.outIdx; have h4 := h.out_le; have h5 := h.len
  unfold getFurtherOutput Spec.Duplex.step
  simp only
  rw [rateBytes_eq hw h.inv, sub32_eq (by omega) (by omega), h3]
  by_cases hfit : s.out + n ≤ (i.rate + 7) / 8
  · rw [if_neg (by omega), if_pos hfit]
    simp only [SnP.extractBytes]
    rw [if_pos (by omega)]
    simp only [Option.bind_eq_bind, Option.bind_some]
    obtain ⟨i', Y, hY1, hY2, hY3, hY4⟩ := further_end hw h (Bytes.slice i.state s.out n) n
      (Bytes.length_slice_of_le (by omega)) hfit hpre.1
    refine ⟨i', Y, hY1, hY2, hY3, ?_⟩
    rw [hY4]
    have hbl := length_block hP hf h
    have hxl : (((Spec.Duplex.block (8 * P.width) f i.rate s.hist).drop (8 * s.out)).take (8 * n)).length =
        min (8 * n) (i.rate - 8 * s.out) := by
      rw [List.length_take, List.length_drop, hbl]
    unfold piece
    simp only
    rw [hxl]
    have e2 : 8 * n - min (8 * n) (i.rate - 8 * s.out) = 8 * n - (i.rate - 8 * s.out) := by omega
    rw [e2]
    congr 1
    apply ext_getD
    · rw [hxl, List.length_take, Bits.length_ofBytes, Bytes.length_slice_of_le (by omega), Nat.min_comm]
    · intro j hj
      rw [List.length_take, Bits.length_ofBytes, Bytes.length_slice_of_le (by omega)] at hj
      rw [getD_take, getD_take, if_pos (by omega), if_pos (by omega), getD_drop,
        block_getD hP hf h _ (by omega)]
      unfold Bytes.slice
      rw [← Bits.take_ofBytes, ← Bits.drop_ofBytes, getD_take, if_pos (by omega), getD_drop, h.bits,
        getD_ge (a := s.queue) (by have := hpre.2 (by omega); omega), Bool.xor_false]
  · rw [if_pos (by omega), if_neg hfit]
    exact ⟨i, [], rfl, h, rfl, rfl⟩

theorem furtherAndAdd_step (h : Rep P f s i) (x : Bytes) (hn : x.length < 2 ^ 32)
    (hpre : Spec.Duplex.Pre i.rate s (.furtherAndAdd x)) :
    ∃ i' out, getFurtherOutputAndAdd i x =
        some ((Spec.Duplex.step (8 * P.width) f i.rate s (.furtherAndAdd x)).1, i', out) ∧
      Rep P f (Spec.Duplex.step (8 * P.width) f i.rate s (.furtherAndAdd x)).2.1 i' ∧ i'.rate = i.rate ∧
      Bits.ofBytes out = (Spec.Duplex.step (8 * P.width) f i.rate s (.furtherAndAdd x)).2.2 := by
  have h1 := h.rate_ge; have h2 := h.rate_le; have h3 := h.outIdx; have h4 := h.out_le; have h5 := h.len
  unfold getFurtherOutputAndAdd Spec.Duplex.step
  simp only
  rw [rateBytes_eq hw h.inv, sub32_eq (by omega) (by omega), h3]
  by_cases hfit : s.out + x.length ≤ (i.rate + 7) / 8
  · rw [if_neg (by omega), if_pos hfit]
    simp only [SnP.extractAndAddBytes]
    rw [if_pos (by omega)]
    simp only [Option.bind_eq_bind, Option.bind_some]
    have hsl : (Bytes.slice i.state s.out x.length).length = x.length := Bytes.length_slice_of_le (by omega)
    have hXl : (Bytes.xor x (Bytes.slice i.state s.out x.length)).length = x.length := by
      rw [Bytes.length_xor, hsl, Nat.min_self]
    obtain ⟨i', Y, hY1, hY2, hY3, hY4⟩ := further_end hw h _ x.length hXl hfit
      (fun h0 => hpre.1 (List.eq_nil_of_length_eq_zero h0))
    refine ⟨i', Y, hY1, hY2, hY3, ?_⟩
    rw [hY4]
    have hbl := length_block hP hf h
    unfold piece
    simp only [Nat.mul_zero, List.drop_zero]
    have hxl : ((xorBits (Bits.ofBytes x) ((Spec.Duplex.block (8 * P.width) f i.rate s.hist).drop
        (8 * s.out))).take (8 * x.length)).length = min (8 * x.length) (i.rate - 8 * s.out) := by
      rw [List.length_take, Spec.Duplex.length_xorBits, Bits.length_ofBytes, List.length_drop, hbl]
      omega
    rw [hxl]
    have e2 : 8 * x.length - min (8 * x.length) (i.rate - 8 * s.out) = 8 * x.length - (i.rate - 8 * s.out) := by
      omega
    rw [e2]
    congr 1
    apply ext_getD
    · rw [hxl, List.length_take, Bits.length_ofBytes, hXl, Nat.min_comm]
    · intro j hj
      rw [List.length_take, Bits.length_ofBytes, hXl] at hj
      have hxb : xorBits (Bits.ofBytes x) ((Spec.Duplex.block (8 * P.width) f i.rate s.hist).drop (8 * s.out)) =
          List.zipWith Bool.xor (Bits.ofBytes x)
            ((Spec.Duplex.block (8 * P.width) f i.rate s.hist).drop (8 * s.out)) := rfl
      have hzip : ∀ (a b : Bits) (j : Nat), j < a.length → j < b.length →
          (List.zipWith Bool.xor a b).getD j false = Bool.xor (a.getD j false) (b.getD j false) := by
        intro a b j ha hb
        simp [List.getD_eq_getElem?_getD, ha, hb]
      rw [getD_take, getD_take, if_pos (by omega), if_pos (by omega), hxb,
        hzip _ _ _ (by rw [Bits.length_ofBytes]; omega) (by rw [List.length_drop, hbl]; omega), getD_drop,
        block_getD hP hf h _ (by omega), Bits.ofBytes_xor _ _ hsl.symm,
        hzip _ _ _ (by rw [Bits.length_ofBytes]; omega) (by rw [Bits.length_ofBytes, hsl]; omega)]
      congr 1
      unfold Bytes.slice
      rw [← Bits.take_ofBytes, ← Bits.drop_ofBytes, getD_take, if_pos (by omega), getD_drop, h.bits,
        getD_ge (a := s.queue) (by
          have := hpre.2 (by rintro rfl; simp at hj)
          omega), Bool.xor_false]
  · rw [if_pos (by omega), if_neg hfit]
    exact ⟨i, [], rfl, h, rfl, rfl⟩

end

end Duplex
