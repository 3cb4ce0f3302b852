import Verif.Model.FarfalleModes
import Verif.Spec.FarfalleModes
import Verif.Proofs.FarfalleSession
import Verif.Proofs.ByteAccess

/-! Common lemmas for the modes of Kravatte and Xoofff. -/

namespace Farfalle

variable {C : Cfg} {P : Spec.Farfalle.Par}

/-! ## `memxoris` -/

theorem xorLoop_eq (step : Nat) (hs : 0 < step) : ∀ (fuel n : Nat) (t s : Bytes), n < fuel → n ≤ t.length → n ≤ s.length →
    xorLoop step fuel t s n = some (Bytes.xor (t.take (n / step * step)) (s.take (n / step * step)), t.drop (n / step * step),
      s.drop (n / step * step), n - n / step * step) := by
  intro fuel
  induction fuel with
  | zero => intro n t s h; omega
  | succ fuel ih =>
    intro n t s h ht hsn
    by_cases hn : n ≥ step
    · have hq : n / step * step = step + (n - step) / step * step := by
        rw [Nat.div_eq_sub_div hs hn, Nat.add_mul, Nat.one_mul, Nat.add_comm]
      have hle := Nat.div_mul_le_self (n - step) step
      simp only [xorLoop, if_pos hn, Option.bind_eq_bind]
      rw [SnP.readBuf_some (by omega : step ≤ t.length), SnP.readBuf_some (by omega : step ≤ s.length), Option.bind_some,
        Option.bind_some, ih (n - step) _ _ (by omega) (by rw [List.length_drop]; omega) (by rw [List.length_drop]; omega),
        Option.bind_some]
      simp only [hq, List.take_add, List.drop_drop, Bytes.xor]
      rw [List.zipWith_append (by rw [List.length_take, List.length_take]; omega), Nat.sub_add_eq]
    · have h0 : n / step = 0 := Nat.div_eq_of_lt (by omega)
      simp [xorLoop, hn, h0, Bytes.xor]

/-- The whole bytes. -/
theorem addIs_eq (t s : Bytes) (n : Nat) (ht : (n + 7) / 8 ≤ t.length) (hs : (n + 7) / 8 ≤ s.length) :
    addIs t s n = if n % 8 ≠ 0 then do
        let a ← t[n / 8]?
        let b ← s[n / 8]?
        some (Bytes.xor (t.take (n / 8)) (s.take (n / 8)) ++ [(a ^^^ b) &&& BitVec.ofNat 8 (2 ^ (n % 8) - 1)] ++ t.drop (n / 8 + 1))
      else some (Bytes.xor (t.take (n / 8)) (s.take (n / 8)) ++ t.drop (n / 8)) := by
  have h1 := Nat.div_mul_le_self (n / 8) 32
  generalize hm1 : n / 8 / 32 * 32 = m1 at h1
  have h2 := Nat.div_mul_le_self (n / 8 - m1) 8
  generalize hm2 : (n / 8 - m1) / 8 * 8 = m2 at h2
  have hx : Bytes.xor (t.take m1) (s.take m1) ++ Bytes.xor ((t.drop m1).take m2) ((s.drop m1).take m2) ++
      Bytes.xor (((t.drop m1).drop m2).take (n / 8 - m1 - m2)) (((s.drop m1).drop m2).take (n / 8 - m1 - m2)) =
      Bytes.xor (t.take (n / 8)) (s.take (n / 8)) := by
    conv_rhs => rw [show n / 8 = m1 + m2 + (n / 8 - m1 - m2) by omega, List.take_add, List.take_add, List.take_add, List.take_add]
    simp only [Bytes.xor, List.drop_drop]
    rw [List.zipWith_append (by simp only [List.length_append, List.length_take, List.length_drop]; omega),
      List.zipWith_append (by simp only [List.length_take]; omega)]
  simp only [addIs, Option.bind_eq_bind]
  rw [xorLoop_eq 32 (by omega) _ _ t s (by omega) (by omega) (by omega), Option.bind_some]
  simp only [hm1]
  rw [xorLoop_eq 8 (by omega) _ _ _ _ (by omega) (by rw [List.length_drop]; omega) (by rw [List.length_drop]; omega),
    Option.bind_some]
  simp only [hm2]
  rw [xorLoop_eq 1 (by omega) _ _ _ _ (by omega) (by simp only [List.length_drop]; omega) (by simp only [List.length_drop]; omega),
    Option.bind_some]
  simp only [List.drop_drop] at hx
  simp only [Nat.div_one, Nat.mul_one, head?_drop, List.drop_drop, hx]
  rw [show m1 + m2 + (n / 8 - m1 - m2) = n / 8 by omega]

theorem take_ofBytes' (t : Bytes) (n : Nat) : (Bits.ofBytes t).take n =
    Bits.ofBytes (t.take (n / 8)) ++ (Bits.ofBytes (t.drop (n / 8))).take (n % 8) := by
  conv_lhs => rw [show n = 8 * (n / 8) + n % 8 by omega]
  rw [List.take_add, Bits.take_ofBytes, Bits.drop_ofBytes]

theorem take_ofBytes_byte (t : Bytes) (n : Nat) (a : Byte) (ha : t[n / 8]? = some a) : (Bits.ofBytes t).take n =
    Bits.ofBytes (t.take (n / 8)) ++ (Bits.ofByte a).take (n % 8) := by
  have hi : n / 8 < t.length := by
    by_contra h
    rw [List.getElem?_eq_none (by omega)] at ha
    cases ha
  have hdr : t.drop (n / 8) = a :: t.drop (n / 8 + 1) := by
    rw [List.drop_eq_getElem_cons hi]
    rw [List.getElem?_eq_getElem hi] at ha
    rw [Option.some.inj ha]
  rw [take_ofBytes', hdr, Bits.ofBytes_cons, List.take_append_of_le_length (by rw [Bits.length_ofByte]; omega)]

theorem length_xorBits (a b : Bits) : (Spec.xorBits a b).length = min a.length b.length := by
  simp [Spec.xorBits]

theorem xorBits_append (a b c d : Bits) (h : a.length = b.length) :
    Spec.xorBits (a ++ c) (b ++ d) = Spec.xorBits a b ++ Spec.xorBits c d := List.zipWith_append h

theorem take_xorBits (a b : Bits) (n : Nat) : (Spec.xorBits a b).take n = Spec.xorBits (a.take n) (b.take n) := List.take_zipWith

theorem drop_xorBits (a b : Bits) (n : Nat) : (Spec.xorBits a b).drop n = Spec.xorBits (a.drop n) (b.drop n) := List.drop_zipWith

theorem xorBits_cancel : ∀ (a b : Bits), a.length ≤ b.length → Spec.xorBits (Spec.xorBits a b) b = a
  | [], b, _ => by simp [Spec.xorBits]
  | x :: a, [], h => by simp at h
  | x :: a, y :: b, h => by
    have := xorBits_cancel a b (by simpa using h)
    simp only [Spec.xorBits, List.zipWith_cons_cons] at this ⊢
    rw [this]
    simp

/-- `memxoris` adds `n` bits of the source, clears the rest of the last byte, and leaves the rest of the target. -/
theorem addIs_spec (t s : Bytes) (n : Nat) (ht : (n + 7) / 8 ≤ t.length) (hs : (n + 7) / 8 ≤ s.length) :
    ∃ o, addIs t s n = some o ∧ Bits.ofBytes o = Spec.xorBits ((Bits.ofBytes t).take n) ((Bits.ofBytes s).take n) ++
      List.replicate ((8 - n % 8) % 8) false ++ Bits.ofBytes (t.drop ((n + 7) / 8)) := by
  rw [addIs_eq t s n ht hs]
  have hl : (t.take (n / 8)).length = (s.take (n / 8)).length := by simp only [List.length_take]; omega
  by_cases h8 : n % 8 = 0
  · rw [if_neg (by omega)]
    refine ⟨_, rfl, ?_⟩
    rw [Bits.ofBytes_append, Bits.ofBytes_xor _ _ hl, take_ofBytes' t, take_ofBytes' s, h8, List.take_zero, List.take_zero,
      List.append_nil, List.append_nil, show (n + 7) / 8 = n / 8 by omega]
    simp [Spec.xorBits]
  · rw [if_pos h8]
    have hi : n / 8 < t.length := by omega
    have hj : n / 8 < s.length := by omega
    rw [List.getElem?_eq_getElem hi, List.getElem?_eq_getElem hj]
    refine ⟨_, rfl, ?_⟩
    rw [take_ofBytes_byte t n _ (List.getElem?_eq_getElem hi), take_ofBytes_byte s n _ (List.getElem?_eq_getElem hj),
      Bits.ofBytes_append, Bits.ofBytes_append, Bits.ofBytes_xor _ _ hl, show ∀ x, Bits.ofBytes [x] = Bits.ofByte x by simp,
      ofByte_mask _ _ (by omega), Bits.ofByte_xor, show (n + 7) / 8 = n / 8 + 1 by omega, xorBits_append _ _ _ _
        (by rw [Bits.length_ofBytes, Bits.length_ofBytes, hl]), List.take_zipWith, show (8 - n % 8) % 8 = 8 - n % 8 by omega]
    simp only [Spec.xorBits, List.append_assoc]

theorem Holds.length {o : Bytes} {l : Bits} (h : Holds o l) : o.length = (l.length + 7) / 8 := by
  have := congrArg List.length h
  rw [Bits.length_ofBytes, List.length_append, List.length_replicate] at this
  omega

theorem Holds.take {o : Bytes} {l : Bits} (h : Holds o l) : (Bits.ofBytes o).take l.length = l := by
  rw [show Bits.ofBytes o = _ from h, List.take_append_of_le_length (Nat.le_refl _), List.take_length]

theorem Holds.take_le {o : Bytes} {l : Bits} (h : Holds o l) {n : Nat} (hn : n ≤ l.length) : (Bits.ofBytes o).take n = l.take n := by
  rw [show Bits.ofBytes o = _ from h, List.take_append_of_le_length hn]

theorem Holds.clean {o : Bytes} {l : Bits} (h : Holds o l) : Clean o l.length := by
  intro x hx h8
  have hi : l.length / 8 < o.length := by rw [h.length]; omega
  have hm := Nat.mod_lt l.length (by omega : 8 > 0)
  have h2 : o.length = l.length / 8 + 1 := by rw [h.length]; omega
  have h3 : o = o.take (l.length / 8) ++ [x] := by
    conv_lhs => rw [← List.take_append_drop (l.length / 8) o, List.drop_eq_getElem_cons hi]
    rw [List.getElem?_eq_getElem hi] at hx
    rw [Option.some.inj hx, List.drop_of_length_le (by omega)]
  have h4 : (Bits.ofByte x).drop (l.length % 8) = List.replicate (8 - l.length % 8) false := by
    have := congrArg (List.drop l.length) (show Bits.ofBytes o = _ from h)
    rw [List.drop_append_of_le_length (Nat.le_refl _), List.drop_length, List.nil_append,
      show (8 - l.length % 8) % 8 = 8 - l.length % 8 by omega] at this
    rw [← this]
    conv_rhs => rw [h3, Bits.ofBytes_append, List.drop_append, Bits.length_ofBytes, List.length_take, Nat.min_eq_left (by omega),
      List.drop_of_length_le (by rw [Bits.length_ofBytes, List.length_take]; omega), List.nil_append,
      show l.length - 8 * (l.length / 8) = l.length % 8 by omega]
    simp
  have h5 := Bits.toNat_append ((Bits.ofByte x).take (l.length % 8)) ((Bits.ofByte x).drop (l.length % 8))
  rw [List.take_append_drop, Bits.toNat_ofByte, h4, Bits.toNat_replicate_false, Nat.mul_zero, Nat.add_zero] at h5
  have h6 := Bits.toNat_lt ((Bits.ofByte x).take (l.length % 8))
  rw [List.length_take, Bits.length_ofByte, Nat.min_eq_left (by omega)] at h6
  omega

/-- `memxoris` of a string and an input. -/
theorem Holds.addIs {o s : Bytes} {l : Bits} (h : Holds o l) (hs : (l.length + 7) / 8 ≤ s.length) :
    ∃ o', Farfalle.addIs o s l.length = some o' ∧ Holds o' (Spec.xorBits ((Bits.ofBytes s).take l.length) l) := by
  obtain ⟨o', h1, h2⟩ := addIs_spec o s l.length (by rw [h.length]) hs
  refine ⟨o', h1, ?_⟩
  rw [Holds, h2, h.take, List.drop_of_length_le (by rw [h.length]), length_xorBits, List.length_take, Bits.length_ofBytes,
    xorBits_comm]
  simp only [Bits.ofBytes_nil, List.append_nil]
  rw [show min (min l.length (8 * s.length)) l.length = l.length by omega]

/-! ## Calls -/

theorem length_take_ofBytes {s : Bytes} {n : Nat} (h : (n + 7) / 8 ≤ s.length) : ((Bits.ofBytes s).take n).length = n := by
  rw [List.length_take, Bits.length_ofBytes]; omega

/-- A buffer of the right size with unused bits 0 holds its bits. -/
theorem Clean.holds {ct : Bytes} {n : Nat} (hctc : Clean ct n) (hn : (n + 7) / 8 = ct.length) : Holds ct ((Bits.ofBytes ct).take n) := by
  have hl := length_take_ofBytes (s := ct) (n := n) (by omega)
  rw [Holds, hl]
  by_cases h8 : n % 8 = 0
  · rw [h8, List.take_of_length_le (by rw [Bits.length_ofBytes]; omega)]; simp
  · have hi : n / 8 < ct.length := by omega
    obtain ⟨x, hx⟩ : ∃ x, ct[n / 8]? = some x := ⟨ct[n / 8], List.getElem?_eq_getElem hi⟩
    have hlx := hctc x hx h8
    have h3 : ct = ct.take (n / 8) ++ [x] := by
      conv_lhs => rw [← List.take_append_drop (n / 8) ct, List.drop_eq_getElem_cons hi]
      rw [List.getElem?_eq_getElem hi] at hx
      rw [Option.some.inj hx, List.drop_of_length_le (by omega)]
    rw [take_ofBytes_byte ct n x hx]
    conv_lhs => rw [h3, Bits.ofBytes_append]
    rw [List.append_assoc, show (8 - n % 8) % 8 = 8 - n % 8 by omega, ← ofByte_mask x _ (by omega)]
    have : x &&& BitVec.ofNat 8 (2 ^ (n % 8) - 1) = x := by
      apply BitVec.eq_of_toNat_eq
      have : 2 ^ (n % 8) ≤ 2 ^ 8 := Nat.pow_le_pow_right (by omega) (by omega)
      rw [BitVec.toNat_and, BitVec.toNat_ofNat, Nat.mod_eq_of_lt (by omega), Nat.and_two_pow_sub_one_eq_mod, Nat.mod_eq_of_lt hlx]
    rw [this]; simp

/-- A piece of an input string. -/
theorem Rep.piece (hC : Valid C) (hM : Matches C P) {kv : Inst} {S : Spec.Farfalle.Obj} (h : Rep C P kv S) (input : Bytes) (n : Nat)
    (init : Bool) (h8 : n % 8 = 0) (hn : n / 8 ≤ input.length) :
    ∃ kv', Farfalle.compress C kv input n { init := init } = some (0, kv') ∧
      Rep C P kv' ⟨S.k, if init then [] else S.done, (if init then [] else S.cur) ++ (Bits.ofBytes input).take n, .input⟩ := by
  obtain ⟨kv', h1, h2⟩ := h.compress hC hM input n { init := init } (by omega) (by simp)
  rw [Spec.Farfalle.Obj.compress, if_neg (by rw [length_take_ofBytes (by omega)]; simp [h8])] at h1 h2
  exact ⟨kv', h1, h2⟩

/-- The last piece of an input string. -/
theorem Rep.last (hC : Valid C) (hM : Matches C P) {kv : Inst} {S : Spec.Farfalle.Obj} (h : Rep C P kv S) (input : Bytes) (n : Nat)
    (init short : Bool) (hn : (n + 7) / 8 ≤ input.length) (hc : Clean input n) :
    ∃ kv', Farfalle.compress C kv input n { init := init, last := true, short := short } = some (0, kv') ∧
      Rep C P kv' ⟨S.k, (if init then [] else S.done) ++ [(if init then [] else S.cur) ++ (Bits.ofBytes input).take n], [],
        .input⟩ := by
  obtain ⟨kv', h1, h2⟩ := h.compress hC hM input n { init := init, last := true, short := short } hn (fun _ => hc)
  rw [Spec.Farfalle.Obj.compress, if_neg (by simp)] at h1 h2
  exact ⟨kv', h1, h2⟩

/-- The last piece, given by the bits it holds. -/
theorem Rep.lastByte (hC : Valid C) (hM : Matches C P) {kv : Inst} {S : Spec.Farfalle.Obj} (h : Rep C P kv S) (b : Byte) (l : Bits)
    (m : Nat) (short : Bool) (hb : Holds [b] l) (hm : m = l.length) :
    ∃ kv', Farfalle.compress C kv [b] m { last := true, short := short } = some (0, kv') ∧
      Rep C P kv' ⟨S.k, S.done ++ [S.cur ++ l], [], .input⟩ := by
  obtain ⟨kv', h1, h2⟩ := h.last hC hM [b] m false short (by rw [hm, ← hb.length]) (hm ▸ hb.clean)
  rw [hm, hb.take] at h2
  exact ⟨kv', h1, h2⟩

/-- Output right after a string, or the next output. -/
theorem Rep.output (hC : Valid C) (hM : Matches C P) {kv : Inst} {k : Bits} {done : List Bits}
    (h : Rep C P kv ⟨k, done, [], .input⟩) (n : Nat) (hn : n + 7 < 2 ^ 64) (init last short : Bool) (h8 : last = true ∨ n % 8 = 0) :
    ∃ kv' o, Farfalle.expand C kv n { init := init, last := last, short := short } = some (0, kv', o) ∧
      Holds o (Spec.Farfalle.output (if short then P.short else P) k done 0 n) ∧
      Rep C P kv' ⟨k, done, [], if last then .finished else .output short n⟩ := by
  have h8' : ¬(last = false ∧ n % 8 ≠ 0) := by rintro ⟨ha, hb⟩; rcases h8 with h8 | h8 <;> simp_all
  obtain ⟨kv', o, h1, h2, h3⟩ := h.expand hC hM n { init := init, last := last, short := short } hn
    (c := 0) (S' := ⟨k, done, [], if last then .finished else .output short (0 + n)⟩)
    (l := Spec.Farfalle.output (if short then P.short else P) k done 0 n)
    (by rw [Spec.Farfalle.Obj.expand]; dsimp only; rw [if_neg h8']; simp)
  rw [Nat.zero_add] at h3
  exact ⟨kv', o, h1, h2, h3⟩

theorem Rep.outputNext (hC : Valid C) (hM : Matches C P) {kv : Inst} {k : Bits} {done : List Bits} {pos : Nat}
    (h : Rep C P kv ⟨k, done, [], .output false pos⟩) (n : Nat) (hn : n + 7 < 2 ^ 64) :
    ∃ kv' o, Farfalle.expand C kv n { last := true } = some (0, kv', o) ∧
      Holds o (Spec.Farfalle.output P k done pos n) ∧ Rep C P kv' ⟨k, done, [], .finished⟩ := by
  obtain ⟨kv', o, h1, h2, h3⟩ := h.expand hC hM n { last := true } hn
    (c := 0) (S' := ⟨k, done, [], .finished⟩) (l := Spec.Farfalle.output P k done pos n)
    (by rw [Spec.Farfalle.Obj.expand]; simp)
  exact ⟨kv', o, h1, h2, h3⟩

/-- Only the mask, the strings and the absence of an unfinished string matter for what follows, if it starts with input. -/
structure At (C : Cfg) (P : Spec.Farfalle.Par) (kv : Inst) (k : Bits) (hist : List Bits) : Prop where
  rep : ∃ m, Rep C P kv ⟨k, hist, [], m⟩

/-- `Kravatte`, `Xoofff`: last piece and output. -/
theorem Rep.full (hC : Valid C) (hM : Matches C P) {kv : Inst} {S : Spec.Farfalle.Obj} (h : Rep C P kv S) (b : Byte) (l : Bits)
    (m : Nat) (hb : Holds [b] l) (hm : m = l.length) (n : Nat) (hn : n + 7 < 2 ^ 64) (short : Bool) :
    ∃ kv' o, Farfalle.full C kv [b] m n { short := short } = some (0, kv', o) ∧
      Holds o (Spec.Farfalle.output (if short then P.short else P) S.k (S.done ++ [S.cur ++ l]) 0 n) ∧
      Rep C P kv' ⟨S.k, S.done ++ [S.cur ++ l], [], .finished⟩ := by
  obtain ⟨kv1, h1, h2⟩ := h.lastByte hC hM b l m short hb hm
  obtain ⟨kv2, o, h3, h4, h5⟩ := h2.output hC hM n hn false true short (.inl rfl)
  refine ⟨kv2, o, ?_, h4, h5⟩
  simp only [Farfalle.full, Option.bind_eq_bind]
  rw [h1, Option.bind_some]
  exact h3

end Farfalle
