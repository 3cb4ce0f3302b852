import Verif.Proofs.SpongeMachine
import Verif.Proofs.BitsLemmas
import Verif.Spec.FIPS202

/-!
Helper lemmas: the byte machine computes the FIPS 202 sponge.
-/

namespace Sponge

variable {P : SnP}

/-- Padding and final permutation on a (state, index) pair, as in `SpongeAbsorbLastFewBits`. -/
def finish (P : SnP) (r : Nat) (st : Bytes × Nat) (d : Byte) : Bytes :=
  let s := Bytes.xorAt st.1 st.2 [d]
  let s := if 0x80#8 ≤ d ∧ st.2 = r - 1 then P.permute s else s
  P.permute (Bytes.xorAt s (r - 1) [0x80])

/-- The bytes appended to the message (delimited suffix and padding) when the queue holds `idx` bytes. -/
def padTail (r idx : Nat) (d : Byte) : Bytes :=
  if idx = r - 1 then
    if 0x80#8 ≤ d then [d] ++ Bytes.zeros (r - 1) ++ [0x80] else [d ^^^ 0x80]
  else [d] ++ Bytes.zeros (r - 2 - idx) ++ [0x80]

theorem length_padTail (r idx : Nat) (hr : 0 < r) (hi : idx < r) (d : Byte) :
    ∃ k, idx + (padTail r idx d).length = k * r ∧ 0 < k := by
  unfold padTail
  split
  · split
    · refine ⟨2, ?_, by omega⟩; simp; omega
    · refine ⟨1, ?_, by omega⟩; simp; omega
  · refine ⟨1, ?_, by omega⟩; simp; omega

theorem xorAt_zeros (s : Bytes) (off n : Nat) : Bytes.xorAt s off (Bytes.zeros n) = s := by
  apply List.ext_getElem?; intro i
  rw [Bytes.getElem?_xorAt]
  cases s[i]?
  · simp
  · simp only [Option.map_some, Option.some.injEq, List.getD_eq_getElem?_getD]
    have : (Bytes.zeros n)[i - off]?.getD 0 = 0#8 := by
      unfold Bytes.zeros
      rw [List.getElem?_replicate]
      split <;> simp
    rw [this]; simp

theorem xorAt_skip (s : Bytes) (off n : Nat) (d : Bytes) :
    Bytes.xorAt s off (Bytes.zeros n ++ d) = Bytes.xorAt s (off + n) d := by
  have := Bytes.xorAt_append s off (Bytes.zeros n) d
  rw [xorAt_zeros] at this
  simpa using this.symm

theorem xorAt_same (s : Bytes) (off : Nat) (a b : Byte) :
    Bytes.xorAt (Bytes.xorAt s off [a]) off [b] = Bytes.xorAt s off [a ^^^ b] := by
  apply List.ext_getElem?; intro i
  simp only [Bytes.getElem?_xorAt]
  cases s[i]?
  · simp
  · simp only [Option.map_some, Option.some.injEq, List.getD_eq_getElem?_getD]
    by_cases h : off ≤ i
    · simp only [h, if_true]
      cases h' : i - off with
      | zero => simp [BitVec.xor_assoc]
      | succ k => simp
    · simp [h]

theorem finish_eq (r : Nat) (hr : 0 < r) (st : Bytes × Nat) (hi : st.2 < r) (d : Byte) :
    finish P r st d = (absorbAll P r st (padTail r st.2 d)).1 ∧
    (absorbAll P r st (padTail r st.2 d)).2 = 0 := by
  obtain ⟨s, idx⟩ := st
  simp only at hi
  unfold finish padTail
  simp only
  by_cases h1 : idx = r - 1
  · by_cases h2 : 0x80#8 ≤ d
    · simp only [h1, h2, if_true, and_self]
      rw [List.append_assoc, absorbAll_append,
        absorbAll_fill r s (r - 1) [d] (by simp) (by simp; omega),
        absorbAll_fill r _ 0 (Bytes.zeros (r - 1) ++ [0x80]) (by simp) (by simp; omega), xorAt_skip]
      simp
    · simp only [h1, h2, if_true, if_false, false_and]
      rw [absorbAll_fill r s (r - 1) [d ^^^ 0x80] (by simp) (by simp; omega), xorAt_same]
      exact ⟨rfl, rfl⟩
  · simp only [h1, and_false, if_false]
    rw [absorbAll_fill r s idx ([d] ++ Bytes.zeros (r - 2 - idx) ++ [0x80]) (by simp)
      (by simp; omega), List.append_assoc, ← Bytes.xorAt_append, xorAt_skip]
    have : idx + [d].length + (r - 2 - idx) = r - 1 := by simp; omega
    rw [this]
    exact ⟨rfl, rfl⟩

/-! ### Blocks -/

theorem blocks_cons (r : Nat) (hr : 0 < r) (l : Bits) (h : r ≤ l.length) :
    Spec.blocks r l = l.take r :: Spec.blocks r (l.drop r) := by
  unfold Spec.blocks
  obtain ⟨k, hk⟩ : ∃ k, l.length = k + r := ⟨l.length - r, by omega⟩
  rw [List.length_drop, hk, Nat.add_sub_cancel, Nat.add_div_right _ hr, List.range_succ_eq_map,
    List.map_cons, List.map_map]
  congr 1
  · simp
  · apply List.map_congr_left
    intro i _
    simp only [Function.comp, List.drop_drop, Nat.succ_eq_add_one]
    congr 2; ring

theorem blocks_nil (r : Nat) (l : Bits) (h : l.length < r) : Spec.blocks r l = [] := by
  unfold Spec.blocks
  rw [Nat.div_eq_of_lt h]; rfl

theorem xorAt_zero_eq (s blk : Bytes) (h : blk.length ≤ s.length) :
    Bytes.xorAt s 0 blk = Bytes.xor s (blk ++ Bytes.zeros (s.length - blk.length)) := by
  apply List.ext_getElem?; intro i
  rw [Bytes.getElem?_xorAt, Bytes.xor, List.getElem?_zipWith]
  cases hs : s[i]?
  · simp
  · have hi : i < s.length := by
      by_contra hc
      rw [List.getElem?_eq_none (by omega)] at hs; cases hs
    simp only [Option.map_some, Nat.zero_le, if_true, Nat.sub_zero, List.getD_eq_getElem?_getD]
    by_cases hb : i < blk.length
    · rw [List.getElem?_append_left hb]; simp [hb]
    · rw [List.getElem?_append_right (by omega)]
      have : i - blk.length < s.length - blk.length := by omega
      rw [List.getElem?_eq_none (by omega : blk.length ≤ i)]
      simp [Bytes.zeros, this]

/-- Bit-level absorption of a byte string made of whole blocks. -/
theorem spec_absorb_eq (hP : P.Valid) (fb : Bits → Bits)
    (hf : ∀ s : Bytes, s.length = P.width → fb (Bits.ofBytes s) = Bits.ofBytes (P.permute s))
    {r : Nat} (hr : 0 < r) (hrw : r ≤ P.width) :
    ∀ (n : Nat) (s p : Bytes), s.length = P.width → p.length = n * r →
      Spec.absorb fb (8 * P.width - 8 * r) (Bits.ofBytes s) (Spec.blocks (8 * r) (Bits.ofBytes p)) =
        Bits.ofBytes (absorbAll P r (s, 0) p).1 := by
  intro n
  induction n with
  | zero =>
    intro s p hs hp
    have : p = [] := List.eq_nil_of_length_eq_zero (by omega)
    subst this
    rw [blocks_nil _ _ (by simp; omega)]
    rfl
  | succ n ih =>
    intro s p hs hp
    rw [Nat.succ_mul] at hp
    have hl : (p.take r).length = r := by simp; omega
    rw [blocks_cons _ (by omega) _ (by simp; omega), Bits.take_ofBytes, Bits.drop_ofBytes]
    have hx : Spec.xorBits (Bits.ofBytes s)
        (Bits.ofBytes (p.take r) ++ List.replicate (8 * P.width - 8 * r) false) =
        Bits.ofBytes (Bytes.xorAt s 0 (p.take r)) := by
      rw [xorAt_zero_eq _ _ (by omega), Bits.ofBytes_xor _ _ (by simp; omega), Bits.ofBytes_append,
        Bits.ofBytes_zeros, Spec.xorBits]
      congr 3; rw [hl, hs]; omega
    unfold Spec.absorb
    rw [List.foldl_cons, hx, hf _ (by simpa)]
    have := ih (P.permute (Bytes.xorAt s 0 (p.take r))) (p.drop r) (hP.permute_len _ (by simpa))
      (by simp; omega)
    unfold Spec.absorb at this
    rw [this]
    conv_rhs => rw [← List.take_append_drop r p]
    rw [absorbAll_append, absorbAll_fill r s 0 (p.take r) (by
      intro h0; rw [h0] at hl; simp at hl; omega) (by omega)]

/-! ### Squeezing -/

theorem repeat_succ' {α : Type} (f : α → α) (n : Nat) (a : α) :
    Nat.repeat f (n + 1) a = Nat.repeat f n (f a) := by
  induction n with
  | zero => rfl
  | succ n ih => rw [Nat.repeat, ih]; rfl

theorem repeat_ofBytes (hP : P.Valid) (fb : Bits → Bits)
    (hf : ∀ s : Bytes, s.length = P.width → fb (Bits.ofBytes s) = Bits.ofBytes (P.permute s))
    (i : Nat) (s : Bytes) (hs : s.length = P.width) :
    Nat.repeat fb i (Bits.ofBytes s) = Bits.ofBytes (Nat.repeat P.permute i s) ∧
      (Nat.repeat P.permute i s).length = P.width := by
  induction i with
  | zero => exact ⟨rfl, hs⟩
  | succ i ih =>
    rw [Nat.repeat, Nat.repeat, ih.1]
    exact ⟨hf _ ih.2, hP.permute_len _ ih.2⟩

theorem squeezeAll_eq_range (hP : P.Valid) {r : Nat} (hr : 0 < r) (hrw : r ≤ P.width) :
    ∀ (k n : Nat) (s : Bytes), s.length = P.width → n / r = k →
      (squeezeAll P r n (s, 0)).2 =
        ((List.range (k + 1)).flatMap fun i => (Nat.repeat P.permute i s).take r).take n := by
  intro k
  induction k with
  | zero =>
    intro n s hs hk
    have hn : n < r := by
      by_contra hc
      have := (Nat.one_le_div_iff hr).2 (by omega : r ≤ n)
      omega
    rw [squeezeAll_block _ _ _ _ (by omega) (by omega)]
    simp [Bytes.slice, Nat.repeat, List.take_take, Nat.min_eq_left (Nat.le_of_lt hn)]
  | succ k ih =>
    intro n s hs hk
    have hn : r ≤ n := by
      by_contra hc
      rw [Nat.div_eq_of_lt (by omega)] at hk; omega
    obtain ⟨m, rfl⟩ : ∃ m, n = r + m := ⟨n - r, by omega⟩
    have hm : m / r = k := by rw [Nat.add_comm, Nat.add_div_right _ hr] at hk; omega
    have htake : (s.take r).length = r := by simp; omega
    rw [List.range_succ_eq_map, List.flatMap_cons, List.flatMap_map]
    have e1 : (fun i => List.take r (Nat.repeat P.permute (Nat.succ i) s)) =
        fun i => List.take r (Nat.repeat P.permute i (P.permute s)) := by
      funext i; rw [Nat.succ_eq_add_one, repeat_succ']
    rw [e1, squeezeAll_add, squeezeAll_block r r s 0 (by omega) (by omega)]
    simp only [Nat.zero_add, Bytes.slice, List.drop_zero]
    have hrest : (squeezeAll P r m (s, r)).2 = (squeezeAll P r m (P.permute s, 0)).2 := by
      cases m with
      | zero => rfl
      | succ m => rw [squeezeAll_full _ _ hr]
    rw [hrest, ih m (P.permute s) (hP.permute_len _ hs) hm, Nat.repeat, List.take_append, htake]
    rw [List.take_of_length_le (by omega : (s.take r).length ≤ r + m)]
    congr 2; omega

theorem ofBytes_flatMap {α : Type} (l : List α) (g : α → Bytes) :
    Bits.ofBytes (l.flatMap g) = l.flatMap fun i => Bits.ofBytes (g i) := by
  induction l with
  | nil => rfl
  | cons a l ih => simp [List.flatMap_cons, ih]

theorem spec_squeeze_eq (hP : P.Valid) (fb : Bits → Bits)
    (hf : ∀ s : Bytes, s.length = P.width → fb (Bits.ofBytes s) = Bits.ofBytes (P.permute s))
    {r : Nat} (hr : 0 < r) (hrw : r ≤ P.width) (n : Nat) (s : Bytes) (hs : s.length = P.width) :
    Spec.squeeze fb (8 * r) (Bits.ofBytes s) (8 * n) = Bits.ofBytes (squeezeAll P r n (s, 0)).2 := by
  unfold Spec.squeeze
  rw [squeezeAll_eq_range hP hr hrw _ n s hs rfl, Nat.mul_div_mul_left _ _ (by omega : 0 < 8)]
  have : (fun i => (Nat.repeat fb i (Bits.ofBytes s)).take (8 * r)) =
      fun i => Bits.ofBytes ((Nat.repeat P.permute i s).take r) := by
    funext i
    rw [(repeat_ofBytes hP fb hf i s hs).1, Bits.take_ofBytes]
  rw [this, ← ofBytes_flatMap, Bits.take_ofBytes]

/-! ### Padding -/

theorem pad_eq (r : Nat) (hr : 0 < r) (m : Bytes) (l : Bits) (d : Byte) (hd : Bits.DelimitedBy l d) :
    Bits.ofBytes (m ++ padTail r (m.length % r) d) =
      (Bits.ofBytes m ++ l) ++ Spec.pad101 (8 * r) (Bits.ofBytes m ++ l).length := by
  rw [Bits.ofBytes_append, List.append_assoc]
  congr 1
  have h80 : Bits.ofByte 0x80 = List.replicate 7 false ++ [true] := by decide
  have hlen := hd.1
  have hlt := Nat.mod_lt m.length hr
  have hdiv := Nat.div_add_mod m.length r
  -- the number of zeros of pad10*1
  have hj : ∀ j : Nat, j < 8 * r → (∃ q : Nat, 8 * m.length + l.length + 2 + j = q * (8 * r)) →
      ((-((8 * m.length + l.length : Nat) : Int) - 2) % ((8 * r : Nat) : Int)).toNat = j := by
    intro j hj ⟨q, hq⟩
    have : (-((8 * m.length + l.length : Nat) : Int) - 2) = (j : Int) + ((8 * r : Nat) : Int) * (-(q : Int)) := by
      have h' : ((8 * m.length + l.length + 2 + j : Nat) : Int) = ((q * (8 * r) : Nat) : Int) := by
        rw [hq]
      push_cast at h' ⊢
      linarith
    rw [this, Int.add_mul_emod_self_left, Int.emod_eq_of_lt (by omega) (by omega)]
    simp
  have hL : (Bits.ofBytes m ++ l).length = 8 * m.length + l.length := by simp
  unfold Spec.pad101
  rw [hL]
  unfold padTail
  by_cases h1 : m.length % r = r - 1
  · rw [if_pos h1]
    by_cases h2 : 0x80#8 ≤ d
    · rw [if_pos h2]
      have h7 := hd.ge_iff.1 h2
      rw [hj (8 * r - 1) (by omega) ⟨m.length / r + 2, by
        rw [h7]
        have : m.length = r * (m.length / r) + (r - 1) := by omega
        have e : (m.length / r + 2) * (8 * r) = 8 * (r * (m.length / r)) + 16 * r := by ring
        omega⟩]
      have e : 8 * (r - 1) + 7 = 8 * r - 1 := by omega
      simp only [List.singleton_append, List.cons_append, Bits.ofBytes_cons, Bits.ofBytes_append, Bits.ofBytes_zeros, Bits.ofBytes_nil,
        List.append_nil, h80, hd.ofByte, h7, Nat.sub_self, List.replicate_zero, List.append_assoc,
        List.nil_append]
      congr 2
      rw [← List.append_assoc, List.replicate_append_replicate, e]
    · rw [if_neg h2]
      have h7 : l.length ≠ 7 := fun h => h2 (hd.ge_iff.2 h)
      rw [hj (6 - l.length) (by omega) ⟨m.length / r + 1, by
        have : m.length = r * (m.length / r) + (r - 1) := by omega
        have e : (m.length / r + 1) * (8 * r) = 8 * (r * (m.length / r)) + 8 * r := by ring
        omega⟩]
      simp only [Bits.ofBytes_cons, Bits.ofBytes_nil, List.append_nil, Bits.ofByte_xor, h80, hd.ofByte]
      have e : 7 - l.length = (6 - l.length) + 1 := by omega
      rw [e, List.replicate_succ' , ← List.append_assoc (l ++ [true]),
        List.zipWith_append (by simp; omega)]
      have hz : ∀ (a : Bits) (n : Nat), a.length = n →
          List.zipWith Bool.xor a (List.replicate n false) = a := by
        intro a
        induction a with
        | nil => intro n _; simp
        | cons x a ih =>
          intro n hn
          cases n with
          | zero => simp at hn
          | succ n =>
            rw [List.replicate_succ, List.zipWith_cons_cons, ih n (by simpa using hn)]
            simp
      rw [hz _ 7 (by simp; omega)]
      simp
  · rw [if_neg h1]
    rw [hj (7 - l.length + 8 * (r - 2 - m.length % r) + 7) (by omega) ⟨m.length / r + 1, by
        have : m.length = r * (m.length / r) + m.length % r := by omega
        have e : (m.length / r + 1) * (8 * r) = 8 * (r * (m.length / r)) + 8 * r := by ring
        omega⟩]
    simp only [List.singleton_append, List.cons_append, Bits.ofBytes_cons, Bits.ofBytes_append,
      Bits.ofBytes_zeros, Bits.ofBytes_nil, List.append_nil, h80, hd.ofByte, List.append_assoc]
    congr 2
    simp only [List.nil_append, List.append_nil]
    rw [← List.append_assoc, ← List.append_assoc, List.replicate_append_replicate,
      List.replicate_append_replicate]

theorem finish_len (hP : P.Valid) (r : Nat) (st : Bytes × Nat) (h : st.1.length = P.width) (d : Byte) :
    (finish P r st d).length = P.width := by
  unfold finish
  simp only
  apply hP.permute_len
  split <;> simp [h, hP.permute_len]

/-- The state after absorbing and padding. -/
theorem spec_state (hP : P.Valid) (fb : Bits → Bits)
    (hf : ∀ s : Bytes, s.length = P.width → fb (Bits.ofBytes s) = Bits.ofBytes (P.permute s))
    {r : Nat} (hr : 0 < r) (hrw : r ≤ P.width) (m : Bytes) (l : Bits) (d : Byte)
    (hd : Bits.DelimitedBy l d) :
    Spec.absorb fb (8 * P.width - 8 * r) (List.replicate (8 * P.width) false)
      (Spec.blocks (8 * r) ((Bits.ofBytes m ++ l) ++ Spec.pad101 (8 * r) (Bits.ofBytes m ++ l).length)) =
    Bits.ofBytes (finish P r (absorbAll P r (P.init, 0) m) d) := by
  have hinit : P.init.length = P.width := by simp [SnP.init]
  have hidx : (absorbAll P r (P.init, 0) m).2 = m.length % r := by
    rw [absorbAll_idx_eq r hr _ _ (by simpa)]; simp
  have hfin := finish_eq (P := P) r hr (absorbAll P r (P.init, 0) m)
    (absorbAll_idx r _ m (by simpa)) d
  rw [hidx] at hfin
  rw [hfin.1, ← absorbAll_append]
  obtain ⟨k, hk, _⟩ := length_padTail r (m.length % r) hr (Nat.mod_lt _ hr) d
  have hlen : (m ++ padTail r (m.length % r) d).length = (m.length / r + k) * r := by
    have := Nat.div_add_mod m.length r
    rw [List.length_append, Nat.add_mul, ← hk, Nat.mul_comm (m.length / r)]
    omega
  rw [← pad_eq r hr m l d hd]
  have hz : (List.replicate (8 * P.width) false) = Bits.ofBytes P.init := by
    rw [SnP.init, Bits.ofBytes_zeros]
  rw [hz, spec_absorb_eq hP fb hf hr hrw _ _ _ hinit hlen]

/-- The byte machine (absorb, pad, squeeze) is SPONGE[f, pad10*1, r]. -/
theorem machine_eq_spec (hP : P.Valid) (fb : Bits → Bits)
    (hf : ∀ s : Bytes, s.length = P.width → fb (Bits.ofBytes s) = Bits.ofBytes (P.permute s))
    {r : Nat} (hr : 0 < r) (hrw : r ≤ P.width) (m : Bytes) (l : Bits) (d : Byte)
    (hd : Bits.DelimitedBy l d) (n : Nat) :
    Bits.ofBytes (squeezeAll P r n (finish P r (absorbAll P r (P.init, 0) m) d, 0)).2 =
      Spec.sponge (8 * P.width) fb (8 * r) (Bits.ofBytes m ++ l) (8 * n) := by
  unfold Spec.sponge
  simp only
  rw [spec_state hP fb hf hr hrw m l d hd, spec_squeeze_eq hP fb hf hr hrw _ _
    (finish_len hP _ _ (absorbAll_len hP r _ _ (by simp [SnP.init])) d)]

theorem flatMap_length_ge {α : Type} (l : List α) (g : α → Bits) (R : Nat)
    (h : ∀ a ∈ l, (g a).length = R) : (l.flatMap g).length = l.length * R := by
  induction l with
  | nil => simp
  | cons a l ih =>
    rw [List.flatMap_cons, List.length_append, h a (by simp), ih (fun b hb => h b (by simp [hb])),
      List.length_cons]
    ring

theorem spec_squeeze_take (f : Bits → Bits) (R : Nat) (hR : 0 < R) (S : Bits)
    (hS : ∀ i, R ≤ (Nat.repeat f i S).length) {d d' : Nat} (h : d ≤ d') :
    (Spec.squeeze f R S d').take d = Spec.squeeze f R S d := by
  unfold Spec.squeeze
  obtain ⟨k, hk⟩ : ∃ k, d' / R + 1 = d / R + 1 + k :=
    ⟨d' / R - d / R, by have := Nat.div_le_div_right (c := R) h; omega⟩
  rw [List.take_take, Nat.min_eq_left h, hk, List.range_add, List.flatMap_append,
    List.take_append_of_le_length]
  rw [flatMap_length_ge _ _ R (by intro i _; simp; exact hS i)]
  rw [List.length_range]
  have := Nat.div_add_mod d R
  have := Nat.mod_lt d hR
  rw [Nat.add_mul, Nat.mul_comm (d / R)]
  omega

/-- As `machine_eq_spec`, for any number of bits. -/
theorem machine_eq_spec_bits (hP : P.Valid) (fb : Bits → Bits)
    (hf : ∀ s : Bytes, s.length = P.width → fb (Bits.ofBytes s) = Bits.ofBytes (P.permute s))
    {r : Nat} (hr : 0 < r) (hrw : r ≤ P.width) (m : Bytes) (l : Bits) (d : Byte)
    (hd : Bits.DelimitedBy l d) (n k : Nat) (hk : k ≤ 8 * n) :
    (Bits.ofBytes (squeezeAll P r n (finish P r (absorbAll P r (P.init, 0) m) d, 0)).2).take k =
      Spec.sponge (8 * P.width) fb (8 * r) (Bits.ofBytes m ++ l) k := by
  rw [machine_eq_spec hP fb hf hr hrw m l d hd n]
  unfold Spec.sponge
  simp only
  rw [spec_state hP fb hf hr hrw m l d hd]
  have hl := finish_len hP r _ (absorbAll_len hP r (P.init, 0) m (by simp [SnP.init])) d
  apply spec_squeeze_take _ _ (by omega) _ _ hk
  intro i
  obtain ⟨h1, h2⟩ := repeat_ofBytes hP fb hf i _ hl
  rw [h1]
  simp only [Bits.length_ofBytes]
  omega

end Sponge
