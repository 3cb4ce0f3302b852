import Verif.Proofs.FarfalleRoll
import Verif.Proofs.SpongeSpec

/-! Relation between the byte level (`eat`, `finish`, `cut`) and the specification on bit strings. -/

namespace Farfalle

open Sponge (blocks_cons blocks_nil)

variable {C : Cfg} {P : Spec.Farfalle.Par}

/-- The configuration implements the parameters of the specification. -/
structure Matches (C : Cfg) (P : Spec.Farfalle.Par) : Prop where
  b : P.b = 8 * C.width
  pb : ∀ s : Bytes, s.length = C.width → Bits.ofBytes (C.permute s) = P.pb (Bits.ofBytes s)
  pc : ∀ s : Bytes, s.length = C.width → Bits.ofBytes (C.permute s) = P.pc (Bits.ofBytes s)
  pd : ∀ s : Bytes, s.length = C.width → Bits.ofBytes (C.permute s) = P.pd (Bits.ofBytes s)
  pe : ∀ s : Bytes, s.length = C.width → Bits.ofBytes (C.permute s) = P.pe (Bits.ofBytes s)
  rollc : ∀ s : Bytes, s.length = C.width → Bits.ofBytes (C.rollc s 1).1 = P.rollc (Bits.ofBytes s)
  rolle : ∀ s : Bytes, s.length = C.width → Bits.ofBytes (C.rolle s 1).1 = P.rolle (Bits.ofBytes s)

theorem xorBits_comm (a b : Bits) : Spec.xorBits a b = Spec.xorBits b a := by
  unfold Spec.xorBits
  rw [List.zipWith_comm]
  congr 1
  funext x y
  exact Bool.xor_comm y x

theorem ofBytes_repeat {f : Bytes → Bytes} {g : Bits → Bits} {w : Nat} (hl : ∀ s : Bytes, s.length = w → (f s).length = w)
    (h : ∀ s : Bytes, s.length = w → Bits.ofBytes (f s) = g (Bits.ofBytes s)) (n : Nat) {s : Bytes} (hs : s.length = w) :
    Bits.ofBytes (Nat.repeat f n s) = Nat.repeat g n (Bits.ofBytes s) := by
  induction n with
  | zero => rfl
  | succ n ih =>
    change Bits.ofBytes (f (Nat.repeat f n s)) = g (Nat.repeat g n (Bits.ofBytes s))
    rw [h _ (length_repeat hl n hs), ih]

theorem repeat_add' {α : Type} (f : α → α) : ∀ a b (z : α), Nat.repeat f (a + b) z = Nat.repeat f b (Nat.repeat f a z) := by
  intro a b
  induction b with
  | zero => intro z; rfl
  | succ b ihb => intro z; rw [← Nat.add_assoc]; simp only [Nat.repeat]; rw [ihb]

/-- `eat` is the accumulation of the specification, with the current mask as key. -/
theorem eat_spec (hC : Valid C) (hM : Matches C P) (k : Bytes) (hk : k.length = C.width) : ∀ (n I : Nat) (x d : Bytes),
    x.length = C.width → d.length = n * C.width →
    Bits.ofBytes (eat C n (Nat.repeat (rc C) I k, x) d).2 =
      Spec.Farfalle.accumulate P (Bits.ofBytes k) (Bits.ofBytes x) I (Spec.blocks P.b (Bits.ofBytes d)) := by
  have hw := hC.width_pos
  intro n
  induction n with
  | zero =>
    intro I x d hx hd
    have : d = [] := List.eq_nil_of_length_eq_zero (by omega)
    subst this
    rw [show Bits.ofBytes ([] : Bytes) = [] from rfl, Sponge.blocks_nil _ _ (by rw [hM.b]; exact Nat.mul_pos (by omega) hw)]
    rfl
  | succ n ih =>
    intro I x d hx hd
    rw [Nat.succ_mul] at hd
    have hI : (Nat.repeat (rc C) I k).length = C.width := length_repeat hC.rollc_ok.len I hk
    have ht : (d.take C.width).length = C.width := by rw [List.length_take]; omega
    have hxl : (Bytes.xor (Nat.repeat (rc C) I k) (d.take C.width)).length = C.width := by
      rw [Bytes.length_xor, hI, ht, Nat.min_self]
    have hpl := hC.permute_len _ hxl
    rw [blocks_cons P.b (by rw [hM.b]; omega) _ (by rw [hM.b, Bits.length_ofBytes]; omega), Spec.Farfalle.accumulate, eat,
      hM.b, Bits.take_ofBytes, Bits.drop_ofBytes]
    have := ih (I + 1) (Bytes.xor x (C.permute (Bytes.xor (Nat.repeat (rc C) I k) (d.take C.width)))) (d.drop C.width)
      (by rw [Bytes.length_xor, hx, hpl, Nat.min_self]) (by rw [List.length_drop]; omega)
    rw [hM.b] at this
    refine Eq.trans this ?_
    congr 1
    rw [Bits.ofBytes_xor _ _ (by rw [hx, hpl]), hM.pc _ hxl, Bits.ofBytes_xor _ _ (by rw [hI, ht]),
      show Bits.ofBytes (Nat.repeat (rc C) I k) = _ from ofBytes_repeat hC.rollc_ok.len hM.rollc I hk]
    change Spec.xorBits _ (P.pc (Spec.xorBits _ _)) = Spec.xorBits _ (P.pc (Spec.xorBits _ _))
    rw [xorBits_comm (Nat.repeat P.rollc I (Bits.ofBytes k))]

/-- The padded message, for a message of `r` followed by the bits `l`. -/
theorem pad_spec (hC : Valid C) (hM : Matches C P) (r : Bytes) (l : Bits) (b : Byte) (hb : Bits.DelimitedBy l b) :
    Spec.Farfalle.pad P.b (Bits.ofBytes r ++ l) =
      Bits.ofBytes (r ++ [b] ++ Bytes.zeros (C.width - (r.length % C.width + 1))) := by
  have hw := hC.width_pos
  have hl := hb.1
  have hlt := Nat.mod_lt r.length hw
  rw [Spec.Farfalle.pad, Bits.ofBytes_append, Bits.ofBytes_append, Bits.ofBytes_zeros,
    show Bits.ofBytes [b] = Bits.ofByte b by simp, hb.ofByte]
  simp only [List.append_assoc, List.cons_append, List.nil_append, List.replicate_append_replicate]
  congr 4
  rw [List.length_append, Bits.length_ofBytes, hM.b]
  have hmod : (8 * r.length + l.length + 1) % (8 * C.width) =
      (8 * (r.length % C.width) + l.length + 1) % (8 * C.width) := by
    have h1 : 8 * r.length + l.length + 1 = (8 * (r.length % C.width) + l.length + 1) + (8 * C.width) * (r.length / C.width) := by
      have := Nat.div_add_mod r.length C.width
      have h2 : 8 * (C.width * (r.length / C.width)) = 8 * C.width * (r.length / C.width) := by rw [Nat.mul_assoc]
      omega
    rw [h1, Nat.add_mul_mod_self_left]
  rw [hmod]
  by_cases hfull : 8 * (r.length % C.width) + l.length + 1 = 8 * C.width
  · rw [hfull, Nat.mod_self, Nat.sub_zero, Nat.mod_self]; omega
  · rw [Nat.mod_eq_of_lt (by omega : 8 * (r.length % C.width) + l.length + 1 < 8 * C.width), Nat.mod_eq_of_lt (by omega)]
    omega

/-- Completing a string: whole blocks and the padded block. -/
theorem finish_eat (hC : Valid C) (st : Bytes × Bytes) (r : Bytes) (b : Byte) :
    finish C st r b = (rc C (eat C (r.length / C.width + 1) st (r ++ [b] ++ Bytes.zeros (C.width - (r.length % C.width + 1)))).1,
      (eat C (r.length / C.width + 1) st (r ++ [b] ++ Bytes.zeros (C.width - (r.length % C.width + 1)))).2) := by
  have hw := hC.width_pos
  have hlt := Nat.mod_lt r.length hw
  have hle := Nat.div_mul_le_self r.length C.width
  have htl := length_tail r C.width
  have e1 : eat C (r.length / C.width) st (r ++ [b] ++ Bytes.zeros (C.width - (r.length % C.width + 1))) =
      eat C (r.length / C.width) st r := by
    rw [← eat_take _ _ _ _ (Nat.le_refl _), List.append_assoc, List.take_append_of_le_length hle, eat_take _ _ _ _ (Nat.le_refl _)]
  have hd : (r ++ [b] ++ Bytes.zeros (C.width - (r.length % C.width + 1))).drop (r.length / C.width * C.width) =
      r.drop (r.length / C.width * C.width) ++ [b] ++ Bytes.zeros (C.width - (r.length % C.width + 1)) := by
    rw [List.append_assoc, List.drop_append_of_le_length hle, ← List.append_assoc]
  have hdl : (r.drop (r.length / C.width * C.width) ++ [b] ++ Bytes.zeros (C.width - (r.length % C.width + 1))).length =
      C.width := by
    rw [List.length_append, List.length_append, htl, Bytes.length_zeros, List.length_singleton]; omega
  rw [eat_add, e1, hd, finish, lastBlock, htl]
  simp only [eat]
  rw [List.take_of_length_le (by omega)]

/-- Bits above the first `n` of the last byte used are zero. -/
def Clean (input : Bytes) (n : Nat) : Prop := ∀ x, input[n / 8]? = some x → n % 8 ≠ 0 → x.toNat < 2 ^ (n % 8)

theorem head?_drop (input : Bytes) (i : Nat) : (input.drop i).head? = input[i]? := by
  rw [List.head?_eq_getElem?, List.getElem?_drop, Nat.add_zero]

/-- The byte with the last bits and the padding bit. -/
theorem padByte_spec (input : Bytes) (n : Nat) (hn : (n + 7) / 8 ≤ input.length) (hc : Clean input n) :
    ∃ b l, padByte (input.drop (n / 8)) (n % 8) = some b ∧ Bits.DelimitedBy l b ∧
      (Bits.ofBytes input).take n = Bits.ofBytes (input.take (n / 8)) ++ l := by
  have hsplit : (Bits.ofBytes input).take n =
      Bits.ofBytes (input.take (n / 8)) ++ (Bits.ofBytes (input.drop (n / 8))).take (n % 8) := by
    conv_lhs => rw [show n = 8 * (n / 8) + n % 8 by omega]
    rw [List.take_add, Bits.take_ofBytes, Bits.drop_ofBytes]
  by_cases h8 : n % 8 = 0
  · refine ⟨1, [], by rw [padByte, if_neg (by omega)], by decide, ?_⟩
    rw [hsplit, h8, List.take_zero]
  · have hi : n / 8 < input.length := by omega
    obtain ⟨x, hx⟩ : ∃ x, input[n / 8]? = some x := ⟨input[n / 8], List.getElem?_eq_getElem hi⟩
    have hlt := hc x hx h8
    have hdr : input.drop (n / 8) = x :: input.drop (n / 8 + 1) := by
      rw [List.drop_eq_getElem_cons hi]
      rw [List.getElem?_eq_getElem hi] at hx
      rw [Option.some.inj hx]
    have hm := Nat.mod_lt n (by omega : 8 > 0)
    have hl : ((Bits.ofByte x).take (n % 8)).length = n % 8 := by rw [List.length_take, Bits.length_ofByte]; omega
    refine ⟨x ||| BitVec.ofNat 8 (2 ^ (n % 8)), (Bits.ofByte x).take (n % 8), ?_, ⟨by omega, ?_⟩, ?_⟩
    · rw [padByte, if_pos h8, head?_drop, hx]; rfl
    · rw [hl]
      have h1 : Bits.toNat ((Bits.ofByte x).take (n % 8)) = x.toNat := by
        have h2 := Bits.toNat_append ((Bits.ofByte x).take (n % 8)) ((Bits.ofByte x).drop (n % 8))
        rw [List.take_append_drop, Bits.toNat_ofByte, hl] at h2
        have h3 : Bits.toNat ((Bits.ofByte x).drop (n % 8)) = 0 := by
          rcases Nat.eq_zero_or_pos (Bits.toNat ((Bits.ofByte x).drop (n % 8))) with h | h
          · exact h
          · have := Nat.mul_le_mul_left (2 ^ (n % 8)) h
            omega
        rw [h3] at h2
        omega
      rw [h1, BitVec.toNat_or, BitVec.toNat_ofNat,
        Nat.mod_eq_of_lt (Nat.pow_lt_pow_right (by omega) hm : 2 ^ (n % 8) < 2 ^ 8), Nat.or_comm,
        Nat.add_comm]
      have := Nat.two_pow_add_eq_or_of_lt hlt 1
      rw [Nat.mul_one] at this
      exact this.symm
    · rw [hsplit, hdr, Bits.ofBytes_cons, List.take_append_of_le_length (by rw [Bits.length_ofByte]; omega)]

/-- The accumulator and the mask after the strings `done`. -/
structure AccOk (C : Cfg) (P : Spec.Farfalle.Par) (k : Bytes) (st : Bytes × Bytes) (done : List Bits) : Prop where
  mask : st.1 = Nat.repeat (rc C) (Spec.Farfalle.compress P (Bits.ofBytes k) done).2 k
  len : st.2.length = C.width
  acc : Bits.ofBytes st.2 = (Spec.Farfalle.compress P (Bits.ofBytes k) done).1

theorem AccOk.start (hM : Matches C P) (k : Bytes) : AccOk C P k (k, Bytes.zeros C.width) [] :=
  ⟨rfl, Bytes.length_zeros _, by rw [Bits.ofBytes_zeros, ← hM.b]; rfl⟩

theorem length_padded (hC : Valid C) (r : Bytes) (b : Byte) :
    (r ++ [b] ++ Bytes.zeros (C.width - (r.length % C.width + 1))).length = (r.length / C.width + 1) * C.width := by
  have hlt := Nat.mod_lt r.length hC.width_pos
  have hsp := Nat.div_add_mod r.length C.width
  rw [List.length_append, List.length_append, Bytes.length_zeros, List.length_singleton, Nat.add_mul, Nat.one_mul, Nat.mul_comm]
  omega

theorem length_blocks (r : Nat) (l : Bits) : (Spec.blocks r l).length = l.length / r := by simp [Spec.blocks]

theorem AccOk.finish (hC : Valid C) (hM : Matches C P) {k : Bytes} (hk : k.length = C.width) {st : Bytes × Bytes}
    {done : List Bits} (h : AccOk C P k st done) (r : Bytes) (l : Bits) (b : Byte) (hb : Bits.DelimitedBy l b) :
    AccOk C P k (finish C st r b) (done ++ [Bits.ofBytes r ++ l]) := by
  have hw := hC.width_pos
  have hp := length_padded hC r b
  have hc : Spec.Farfalle.compress P (Bits.ofBytes k) (done ++ [Bits.ofBytes r ++ l]) =
      Spec.Farfalle.compressOne P (Bits.ofBytes k) (Spec.Farfalle.compress P (Bits.ofBytes k) done) (Bits.ofBytes r ++ l) := by
    rw [Spec.Farfalle.compress, List.foldl_append]; rfl
  have hst : st = (Nat.repeat (rc C) (Spec.Farfalle.compress P (Bits.ofBytes k) done).2 k, st.2) := by rw [← h.mask]
  have hl1 : st.1.length = C.width := by rw [h.mask]; exact length_repeat hC.rollc_ok.len _ hk
  have hnb : (Spec.blocks P.b (Spec.Farfalle.pad P.b (Bits.ofBytes r ++ l))).length = r.length / C.width + 1 := by
    rw [length_blocks, pad_spec hC hM r l b hb, Bits.length_ofBytes, hp, hM.b, ← Nat.mul_assoc, Nat.mul_comm 8,
      Nat.mul_assoc, Nat.mul_div_cancel _ (by omega)]
  refine ⟨?_, ?_, ?_⟩
  · rw [finish_eat hC, hc, Spec.Farfalle.compressOne]
    dsimp only
    rw [eat_fst, h.mask, hnb, ← repeat_add, Nat.add_assoc _ (r.length / C.width + 1) 1, ← Nat.add_assoc]
    rfl
  · rw [finish_eat hC]
    exact (length_eat hC _ st _ hl1 h.len (by omega)).2
  · rw [finish_eat hC, hc, Spec.Farfalle.compressOne]
    dsimp only
    rw [hst, eat_spec hC hM k hk _ _ _ _ h.len hp, h.acc, pad_spec hC hM r l b hb]

/-- The masking of the last byte of the output. -/
theorem ofByte_mask (x : Byte) (r : Nat) (hr : r < 8) :
    Bits.ofByte (x &&& BitVec.ofNat 8 (2 ^ r - 1)) = (Bits.ofByte x).take r ++ List.replicate (8 - r) false := by
  apply List.ext_getElem?; intro i
  by_cases hi : i < 8
  · have h1 : (Bits.ofByte (x &&& BitVec.ofNat 8 (2 ^ r - 1)))[i]? = some (x.getLsbD i && decide (i < r)) := by
      simp only [Bits.ofByte, List.getElem?_map, List.getElem?_range hi, Option.map_some, BitVec.getLsbD_and,
        BitVec.getLsbD_ofNat, hi, decide_true, Bool.true_and, Nat.testBit_two_pow_sub_one]
    rw [h1]
    by_cases hir : i < r
    · rw [List.getElem?_append_left (by rw [List.length_take, Bits.length_ofByte]; omega), List.getElem?_take, if_pos hir]
      simp [Bits.ofByte, hi, hir]
    · rw [List.getElem?_append_right (by rw [List.length_take, Bits.length_ofByte]; omega), List.length_take,
        Bits.length_ofByte, Nat.min_eq_left (by omega), List.getElem?_replicate, if_pos (by omega)]
      simp [hir]
  · rw [List.getElem?_eq_none (by rw [Bits.length_ofByte]; omega), List.getElem?_eq_none]
    rw [List.length_append, List.length_take, Bits.length_ofByte, List.length_replicate]; omega

theorem maskLast_spec {out o : Bytes} {n : Nat} (hl : out.length = (n + 7) / 8) (h : maskLast out n = some o) :
    Bits.ofBytes o = (Bits.ofBytes out).take n ++ List.replicate (8 * ((n + 7) / 8) - n) false := by
  unfold maskLast at h
  by_cases h8 : n % 8 = 0
  · rw [if_neg (by omega)] at h
    cases h
    rw [List.take_of_length_le (by rw [Bits.length_ofBytes]; omega), show 8 * ((n + 7) / 8) - n = 0 by omega]
    simp
  · rw [if_pos h8] at h
    cases hg : out.getLast? with
    | none => rw [hg] at h; simp at h
    | some x =>
      rw [hg] at h
      simp only [Option.some.injEq] at h
      subst h
      have hout : out = out.dropLast ++ [x] := by
        obtain ⟨ys, rfl⟩ := List.getLast?_eq_some_iff.mp hg
        rw [List.dropLast_concat]
      have hdl : out.dropLast.length = n / 8 := by rw [List.length_dropLast, hl]; omega
      rw [Bits.ofBytes_append, show Bits.ofBytes [x &&& BitVec.ofNat 8 (2 ^ (n % 8) - 1)] =
        Bits.ofByte (x &&& BitVec.ofNat 8 (2 ^ (n % 8) - 1)) by simp, ofByte_mask _ _ (by omega)]
      conv_rhs => rw [hout, Bits.ofBytes_append, List.take_append, Bits.length_ofBytes, hdl]
      rw [show (Bits.ofBytes out.dropLast).take n = Bits.ofBytes out.dropLast from
          List.take_of_length_le (by rw [Bits.length_ofBytes, hdl]; omega), show Bits.ofBytes [x] = Bits.ofByte x by simp,
        show n - 8 * (n / 8) = n % 8 by omega, show 8 - n % 8 = 8 * ((n + 7) / 8) - n by omega, List.append_assoc]

/-- Bit `q` of the blocks generated. -/
theorem gen_bit (hC : Valid C) (hM : Matches C P) {kRoll : Bytes} (hk : kRoll.length = C.width) : ∀ (N : Nat) (y : Bytes) (q : Nat),
    y.length = C.width → q < N * P.b →
    (Bits.ofBytes (gen C kRoll N y))[q]? =
      some ((Spec.Farfalle.outBlock P (Bits.ofBytes kRoll) (Bits.ofBytes y) (q / P.b)).getD (q % P.b) false) := by
  have hw := hC.width_pos
  have hb : 0 < P.b := by rw [hM.b]; omega
  intro N
  induction N with
  | zero => intro y q _ hq; omega
  | succ N ih =>
    intro y q hy hq
    rw [Nat.succ_mul] at hq
    have hp := hC.permute_len y hy
    have hbl : (Bits.ofBytes (Bytes.xor kRoll (C.permute y))).length = P.b := by
      rw [Bits.length_ofBytes, Bytes.length_xor, hk, hp, Nat.min_self, hM.b]
    have h0 : Bits.ofBytes (Bytes.xor kRoll (C.permute y)) =
        Spec.Farfalle.outBlock P (Bits.ofBytes kRoll) (Bits.ofBytes y) 0 := by
      rw [Bits.ofBytes_xor _ _ (by rw [hk, hp]), hM.pe y hy, Spec.Farfalle.outBlock, xorBits_comm]
      rfl
    rw [gen, Bits.ofBytes_append]
    by_cases hlt : q < P.b
    · rw [List.getElem?_append_left (by omega), Nat.div_eq_of_lt hlt, Nat.mod_eq_of_lt hlt, ← h0,
        List.getD_eq_getElem?_getD, List.getElem?_eq_getElem (by omega)]
      rfl
    · rw [List.getElem?_append_right (by omega), hbl, ih (re C y) (q - P.b) (length_re hC hy) (by omega)]
      have e1 : q / P.b = (q - P.b) / P.b + 1 := Nat.div_eq_sub_div hb (by omega)
      have e2 : q % P.b = (q - P.b) % P.b := Nat.mod_eq_sub_mod (by omega)
      rw [e1, e2, Spec.Farfalle.outBlock, Spec.Farfalle.outBlock, Sponge.repeat_succ', ← hM.rolle y hy]
      rfl

/-- `cut` is the output stream of the specification. -/
theorem cut_spec (hC : Valid C) (hM : Matches C P) {kRoll y : Bytes} (hk : kRoll.length = C.width) (hy : y.length = C.width)
    (p m n : Nat) (hn : n ≤ 8 * m) :
    (Bits.ofBytes (cut C kRoll y p m)).take n = Spec.Farfalle.stream P (Bits.ofBytes kRoll) (Bits.ofBytes y) (8 * p) n := by
  have hlc := length_cut hC hk hy p m
  apply List.ext_getElem?; intro t
  by_cases ht : t < n
  · rw [List.getElem?_take, if_pos ht, cut, Bytes.slice, ← Bits.take_ofBytes, ← Bits.drop_ofBytes, List.getElem?_take,
      if_pos (by omega), List.getElem?_drop, gen_bit hC hM hk _ _ _ hy ?_]
    · simp [Spec.Farfalle.stream, ht]
    · rw [hM.b]
      have := le_mul_width hC (p + m)
      have h2 : (p + m) * (8 * C.width) = 8 * ((p + m) * C.width) := by
        rw [Nat.mul_left_comm]
      omega
  · rw [List.getElem?_eq_none (by rw [List.length_take]; omega), List.getElem?_eq_none]
    simp [Spec.Farfalle.stream]; omega

end Farfalle
