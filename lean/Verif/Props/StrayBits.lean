import Verif.Props.KeccakHash
import Verif.Props.SP800185
import Verif.Props.FarfalleWbc

/-!
# Property C44: unused bits of the last byte

The functions that take a number of bits should depend on these bits only.  For each of them this file proves that, or refers to the
theorem that shows the contrary.
-/

theorem Bits.take_eq_bytes {d d' : Bytes} {n : Nat} (h : (Bits.ofBytes d).take n = (Bits.ofBytes d').take n) :
    d.take (n / 8) = d'.take (n / 8) := by
  apply Bits.ofBytes_injective
  rw [← Bits.take_ofBytes, ← Bits.take_ofBytes]
  have := congrArg (List.take (8 * (n / 8))) h
  rwa [List.take_take, List.take_take, Nat.min_eq_left (by omega)] at this

/-- The used bits of the last byte are the same. -/
theorem Bits.take_eq_last {d d' : Bytes} {n : Nat} (hn : n ≤ 8 * d.length) (hn' : n ≤ 8 * d'.length)
    (h : (Bits.ofBytes d).take n = (Bits.ofBytes d').take n) (h8 : n % 8 ≠ 0) :
    ∃ x x', d[n / 8]? = some x ∧ d'[n / 8]? = some x' ∧ (Bits.ofByte x).take (n % 8) = (Bits.ofByte x').take (n % 8) := by
  have hi : n / 8 < d.length := by omega
  have hi' : n / 8 < d'.length := by omega
  refine ⟨d[n / 8], d'[n / 8], List.getElem?_eq_getElem hi, List.getElem?_eq_getElem hi', ?_⟩
  have hb := Bits.take_eq_bytes h
  rw [Farfalle.take_ofBytes_byte d n _ (List.getElem?_eq_getElem hi), Farfalle.take_ofBytes_byte d' n _ (List.getElem?_eq_getElem hi'),
    hb] at h
  exact List.append_cancel_left h

theorem Bits.mask_eq {x x' : Byte} {r : Nat} (hr : r < 8) (h : (Bits.ofByte x).take r = (Bits.ofByte x').take r) :
    x &&& BitVec.ofNat 8 (2 ^ r - 1) = x' &&& BitVec.ofNat 8 (2 ^ r - 1) := by
  have : Bits.ofBytes [x &&& BitVec.ofNat 8 (2 ^ r - 1)] = Bits.ofBytes [x' &&& BitVec.ofNat 8 (2 ^ r - 1)] := by
    simp only [Bits.ofBytes_cons, Bits.ofBytes_nil, List.append_nil]
    rw [Farfalle.ofByte_mask _ _ (by omega), Farfalle.ofByte_mask _ _ (by omega), h]
  exact List.head_eq_of_cons_eq (Bits.ofBytes_injective this)

theorem SnP.readBuf_take_eq {d d' : Bytes} {m : Nat} (hm : m ≤ d.length) (hm' : m ≤ d'.length) (h : d.take m = d'.take m) :
    SnP.readBuf d m = SnP.readBuf d' m := by
  rw [SnP.readBuf_some hm, SnP.readBuf_some hm', h]

theorem mask8 : ∀ r < 8, ((1#8 <<< r) - 1) = BitVec.ofNat 8 (2 ^ r - 1) := by decide

theorem mask16 : ∀ r < 8, ((1#16 <<< r) - 1) = (BitVec.ofNat 8 (2 ^ r - 1)).setWidth 16 := by decide

/-- C44 for `Keccak_HashUpdate`. -/
theorem KeccakHash.C44_hash (P : SnP) (inst : HashInst) (d d' : Bytes) (n : Nat) (hn : n ≤ 8 * d.length) (hn' : n ≤ 8 * d'.length)
    (h : (Bits.ofBytes d).take n = (Bits.ofBytes d').take n) : hashUpdate P inst d n = hashUpdate P inst d' n := by
  unfold hashUpdate
  rw [SnP.readBuf_take_eq (by omega) (by omega) (Bits.take_eq_bytes h)]
  by_cases h8 : n % 8 = 0
  · simp only [h8, if_true]
  · obtain ⟨x, x', hx, hx', he⟩ := Bits.take_eq_last hn hn' h h8
    have hw : delimitedLastBytes x inst.delimitedSuffix (n % 8) = delimitedLastBytes x' inst.delimitedSuffix (n % 8) := by
      unfold delimitedLastBytes
      rw [mask16 _ (Nat.mod_lt _ (by omega)), ← BitVec.setWidth_and, ← BitVec.setWidth_and,
        Bits.mask_eq (Nat.mod_lt _ (by omega)) he]
    simp only [hx, hx', Option.bind_eq_bind, Option.bind_some, hw]

/-- C44 for the message in `cSHAKE_Update`.  The functions KMAC, ParallelHash and TupleHash take whole bytes as message. -/
theorem SP800185.C44_cSHAKE_message (P : SnP) (csk : CShakeInst) (d d' : Bytes) (n : Nat) (hn : n ≤ 8 * d.length)
    (hn' : n ≤ 8 * d'.length) (h : (Bits.ofBytes d).take n = (Bits.ofBytes d').take n) : cUpdate P csk d n = cUpdate P csk d' n := by
  unfold cUpdate
  rw [SnP.readBuf_take_eq (by omega) (by omega) (Bits.take_eq_bytes h)]
  by_cases h8 : n % 8 = 0
  · simp only [h8, ne_eq, not_true_eq_false, if_false]
  · obtain ⟨x, x', hx, hx', he⟩ := Bits.take_eq_last hn hn' h h8
    have hw : x &&& ((1#8 <<< (n % 8)) - 1) = x' &&& ((1#8 <<< (n % 8)) - 1) := by
      rw [mask8 _ (Nat.mod_lt _ (by omega)), Bits.mask_eq (Nat.mod_lt _ (by omega)) he]
    simp only [hx, hx', Option.map_some, hw]

namespace Farfalle

variable {C : Cfg} {P : Spec.Farfalle.Par}

/-- C44 for the data in the wide block cipher (the tweak goes to `Kra`/`Xoofff_Compress`, see `C44_farfalle_false`). -/
theorem C44_wbc_data (hC : Valid C) (hM : Matches C P) {kv : Inst} {key : Bits} (h : Keyed C P kv key) (d d' : Bytes) (n : Nat)
    (hn : (n + 7) / 8 ≤ d.length) (hn' : (n + 7) / 8 ≤ d'.length) (he : (Bits.ofBytes d).take n = (Bits.ofBytes d').take n)
    (hs : SplitOk P n) (hlt : n + 7 < 2 ^ 64) (w : Bytes) (wLen : Nat) (hw : (wLen + 7) / 8 ≤ w.length) (hc : Clean w wLen) :
    (∃ kv₁ kv₂ o, wbcEncipher C kv d n w wLen = some (0, kv₁, o) ∧ wbcEncipher C kv d' n w wLen = some (0, kv₂, o)) ∧
    ∃ kv₁ kv₂ o, wbcDecipher C kv d n w wLen = some (0, kv₁, o) ∧ wbcDecipher C kv d' n w wLen = some (0, kv₂, o) := by
  obtain ⟨S, r, -⟩ := h
  obtain ⟨nL, s1, s2⟩ := C36_partial hC hM n hs
  constructor
  · obtain ⟨kv₁, o, _, g1, g2, _⟩ := wbcEncipher_spec hC hM r d n _ hn hlt s1 s2.le s2.lane w wLen hw hc
    obtain ⟨kv₂, o', _, j1, j2, _⟩ := wbcEncipher_spec hC hM r d' n _ hn' hlt s1 s2.le s2.lane w wLen hw hc
    rw [he] at g2
    obtain rfl : o = o' := Bits.ofBytes_injective (g2.trans j2.symm)
    exact ⟨kv₁, kv₂, o, g1, j1⟩
  · obtain ⟨kv₁, o, _, g1, g2, _⟩ := wbcDecipher_spec hC hM r d n _ hn hlt s1 s2.le s2.lane w wLen hw hc
    obtain ⟨kv₂, o', _, j1, j2, _⟩ := wbcDecipher_spec hC hM r d' n _ hn' hlt s1 s2.le s2.lane w wLen hw hc
    rw [he] at g2
    obtain rfl : o = o' := Bits.ofBytes_injective (g2.trans j2.symm)
    exact ⟨kv₁, kv₂, o, g1, j1⟩

theorem xor_left_cancel : ∀ {a b c : Bytes}, b.length = a.length → c.length = a.length → Bytes.xor a b = Bytes.xor a c → b = c
  | [], b, c, hb, hc, _ => by
    rw [List.length_eq_zero_iff.mp (show b.length = 0 by simpa using hb), List.length_eq_zero_iff.mp (show c.length = 0 by simpa using hc)]
  | x :: a, y :: b, z :: c, hb, hc, h => by
    simp only [Bytes.xor, List.zipWith_cons_cons, List.cons.injEq] at h
    have h1 : y = z := by
      have := congrArg (x ^^^ ·) h.1
      simpa only [← BitVec.xor_assoc, BitVec.xor_self, BitVec.zero_xor] using this
    rw [h1, xor_left_cancel (by simpa using hb) (by simpa using hc) h.2]
  | _ :: _, [], _, hb, _, _ => by simp at hb
  | _ :: _, _ :: _, [], _, hc, _ => by simp at hc

/-- C44 is false for `Kra` and `Xoofff_Compress`, with any permutation: the bytes 0x00 and 0x80 hold the same string of one bit, but the
accumulators differ.  The same function processes the nonce and the associated data of SANE and the tweak of WBC. -/
theorem C44_farfalle_false (hC : Valid C) (hinj : ∀ s t : Bytes, s.length = C.width → t.length = C.width →
      C.permute s = C.permute t → s = t) (kv : Inst) (hs : Sized C kv) (hph : kv.phase = .compressing) (h0 : kv.queueOffset = 0) :
    (Bits.ofBytes [0x00]).take 1 = (Bits.ofBytes [0x80]).take 1 ∧
    ∃ kv₁ kv₂, compress C kv [0x00] 1 { last := true } = some (0, kv₁) ∧ compress C kv [0x80] 1 { last := true } = some (0, kv₂) ∧
      kv₁.xAccu ≠ kv₂.xAccu := by
  refine ⟨by decide, ?_⟩
  have hw := hC.width_pos
  have hp := Pend.nil hC h0
  obtain ⟨kv₁, g1, -, -, g4, -⟩ := compress_true hC kv hs hph [] hp [0x00] 1 0x02 (by decide) (by decide) false
  obtain ⟨kv₂, k1, -, -, k4, -⟩ := compress_true hC kv hs hph [] hp [0x80] 1 0x82 (by decide) (by decide) false
  refine ⟨kv₁, kv₂, g1, k1, fun he => ?_⟩
  have e1 := congrArg Prod.snd g4
  have e2 := congrArg Prod.snd k4
  simp only [finish, lastBlock, Nat.reduceDiv, List.take_zero, List.append_nil, List.length_nil, Nat.zero_div, eat, List.drop_nil,
    List.nil_append] at e1 e2
  rw [he, e2] at e1
  have hl : ∀ b : Byte, (Bytes.xor kv.kRoll ([b] ++ Bytes.zeros (C.width - (0 + 1)))).length = C.width := by
    intro b
    rw [Bytes.length_xor, hs.kRoll, List.length_append, Bytes.length_zeros, List.length_singleton]; omega
  have e3 := xor_left_cancel (by rw [hC.permute_len _ (hl _), hs.xAccu]) (by rw [hC.permute_len _ (hl _), hs.xAccu]) e1
  have e4 := xor_left_cancel (by rw [hs.kRoll]; simp [Bytes.length_zeros]; omega) (by rw [hs.kRoll]; simp [Bytes.length_zeros]; omega)
    (hinj _ _ (hl _) (hl _) e3)
  exact absurd (List.head_eq_of_cons_eq e4) (by decide)

/-! ## The hypotheses can be met -/

/-- Kravatte with the reference permutation meets the hypotheses of `C44_farfalle_false`. -/
example : ∃ kv, Valid (Kravatte.cfg (KeccakP1600.Ref.permuteNrounds 6) (Bytes.zeros 200) []) ∧
    (∀ s t : Bytes, s.length = 200 → t.length = 200 → KeccakP1600.Ref.permuteNrounds 6 s = KeccakP1600.Ref.permuteNrounds 6 t → s = t) ∧
    Sized (Kravatte.cfg (KeccakP1600.Ref.permuteNrounds 6) (Bytes.zeros 200) []) kv ∧ kv.phase = .compressing ∧ kv.queueOffset = 0 :=
  ⟨{ blank 200 with phase := .compressing, queueOffset := 0 },
    (kravatte_ok _ (C31_kravatte _ (.inl rfl)) _ (Bytes.length_zeros 200) [] (by simp)).1, (KeccakP1600.C38_ref 6 (by decide)).1,
    by constructor <;> exact Bytes.length_zeros 200, rfl, rfl⟩

/-- Two buffers for the same 13 bits. -/
example : (Bits.ofBytes [0x5A, 0x15]).take 13 = (Bits.ofBytes [0x5A, 0xF5]).take 13 := by decide

end Farfalle
