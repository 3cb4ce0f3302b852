import Verif.Proofs.FarfalleModes

/-! SANE on top of Kravatte and Xoofff. -/

namespace Farfalle

variable {C : Cfg} {P : Spec.Farfalle.Par}

instance (o : Bytes) (l : Bits) : Decidable (Holds o l) := inferInstanceAs (Decidable (_ = _))

theorem sane_byte_small : ∀ r < 7, ∀ d < 2 ^ r, ∀ a e : Bool,
    Holds [BitVec.ofNat 8 (d ||| a.toNat <<< r ||| e.toNat <<< (r + 1))] ((Bits.ofByte (BitVec.ofNat 8 d)).take r ++ [a, e]) := by
  decide +kernel

theorem sane_byte_seven : ∀ d < 2 ^ 7, ∀ a : Bool,
    Holds [BitVec.ofNat 8 (d ||| a.toNat <<< 7)] ((Bits.ofByte (BitVec.ofNat 8 d)).take 7 ++ [a]) := by
  decide +kernel

theorem sane_byte_one : ∀ e : Bool, Holds [BitVec.ofNat 8 e.toNat] [e] := by decide

theorem sane_byte_zero : ∀ a e : Bool, Holds [BitVec.ofNat 8 (a.toNat ||| e.toNat <<< 1)] [a, e] := by decide

/-- `AddToHistory` adds the string `data || appendix || e`. -/
theorem saneAddToHistory_spec (hC : Valid C) (hM : Matches C P) {kv : Inst} {k : Bits} {hist : List Bits} (h : At C P kv k hist)
    (e a : Bool) (data : Bytes) (n : Nat) (hn : (n + 7) / 8 ≤ data.length) (hc : Clean data n) :
    ∃ kv', saneAddToHistory C kv e.toNat data n a.toNat = some (0, kv') ∧
      Rep C P kv' ⟨k, hist ++ [(Bits.ofBytes data).take n ++ [a, e]], [], .input⟩ := by
  obtain ⟨m, h⟩ := h.rep
  obtain ⟨kv1, h1, r1⟩ := h.piece hC hM data (n / 8 * 8) false (by omega) (by omega)
  rw [if_neg (by simp), if_neg (by simp), List.nil_append, Nat.mul_comm, Bits.take_ofBytes] at r1
  simp only [saneAddToHistory, Option.bind_eq_bind]
  rw [show ({} : Flags) = { init := false } from rfl, h1, Option.bind_some, if_neg (by simp)]
  by_cases h8 : n % 8 = 0
  · rw [if_pos h8]
    obtain ⟨kv2, h2, r2⟩ := r1.lastByte hC hM _ _ 2 false (sane_byte_zero a e) rfl
    refine ⟨kv2, h2, ?_⟩
    rw [take_ofBytes', h8, List.take_zero, List.append_nil]
    exact r2
  · rw [if_neg h8]
    obtain ⟨d, hd⟩ : ∃ d, data[n / 8]? = some d := ⟨data[n / 8]'(by omega), List.getElem?_eq_getElem _⟩
    have hlt := hc d hd h8
    rw [hd, Option.bind_some, take_ofBytes_byte data n d hd, List.append_assoc]
    by_cases h6 : n % 8 ≤ 6
    · rw [if_pos h6]
      have hb := sane_byte_small (n % 8) (by omega) d.toNat hlt a e
      rw [BitVec.ofNat_toNat, BitVec.setWidth_eq] at hb
      exact r1.lastByte hC hM _ _ _ false hb (by simp; omega)
    · have h7 : n % 8 = 7 := by omega
      rw [h7] at hlt
      rw [if_neg h6, h7]
      have hb := sane_byte_seven d.toNat hlt a
      rw [BitVec.ofNat_toNat, BitVec.setWidth_eq] at hb
      obtain ⟨kv2, h2, r2⟩ := r1.piece hC hM [BitVec.ofNat 8 (d.toNat ||| a.toNat <<< 7)] 8 false (by omega) (by simp)
      rw [h2, Option.bind_some, if_neg (by simp)]
      have hbl : (Bits.ofBytes [BitVec.ofNat 8 (d.toNat ||| a.toNat <<< 7)]).take 8 = (Bits.ofByte d).take 7 ++ [a] :=
        hb.take_le (n := 8) (by simp)
      rw [hbl, if_neg (by simp), if_neg (by simp)] at r2
      obtain ⟨kv3, h3, r3⟩ := r2.lastByte hC hM _ _ 1 false (sane_byte_one e) rfl
      refine ⟨kv3, h3, ?_⟩
      simp only [List.append_assoc, List.cons_append, List.nil_append] at r3
      exact r3

/-- The object of the code in a session. -/
structure SaneRep (C : Cfg) (P : Spec.Farfalle.Par) (kp : Sess) (S : Spec.Farfalle.Session) : Prop where
  e : kp.e = S.e.toNat
  rep : Rep C P kp.kv ⟨S.k, S.hist, [], .output false Spec.Farfalle.Sane.t⟩

theorem saneInitialize_spec (hC : Valid C) (hM : Matches C P) (kp : Sess) (hs : Sized C kp.kv) (key : Bytes) (keyLen : Nat)
    (hk : (keyLen + 7) / 8 ≤ key.length) (hkb : keyLen < P.b) (nonce : Bytes) (nonceLen : Nat)
    (hn : (nonceLen + 7) / 8 ≤ nonce.length) (hc : Clean nonce nonceLen) :
    ∃ kp' tag, saneInitialize C kp key keyLen nonce nonceLen = some (0, kp', tag) ∧
      Bits.ofBytes tag = (Spec.Farfalle.Sane.start P ((Bits.ofBytes key).take keyLen) ((Bits.ofBytes nonce).take nonceLen)).2 ∧
      SaneRep C P kp' (Spec.Farfalle.Sane.start P ((Bits.ofBytes key).take keyLen) ((Bits.ofBytes nonce).take nonceLen)).1 := by
  obtain ⟨kv1, h1, r1⟩ := maskDerivation_spec hC hM kp.kv hs key keyLen hk hkb
  obtain ⟨kv2, h2, r2⟩ := r1.last hC hM nonce nonceLen true false hn hc
  obtain ⟨kv3, tag, h3, ht, r3⟩ := r2.output hC hM (SANE_TagLength * 8) (by decide) false false false (.inr (by decide))
  refine ⟨⟨kv3, 0⟩, tag, ?_, ?_, ⟨rfl, r3⟩⟩
  · simp only [saneInitialize, Option.bind_eq_bind]
    rw [h1, Option.bind_some, if_neg (by simp), h2, Option.bind_some, if_neg (by simp)]
    change (expand C kv2 (SANE_TagLength * 8) _).bind _ = _
    rw [h3]
    rfl
  · rw [Holds, length_output] at ht
    rw [ht]
    simp [Spec.Farfalle.Sane.start, SANE_TagLength, Spec.Farfalle.Sane.t, Spec.Farfalle.Obj.start]

/-- The first half of `Wrap` and `Unwrap`. -/
theorem saneCrypt_spec (hC : Valid C) (hM : Matches C P) {kp : Sess} {S : Spec.Farfalle.Session} (h : SaneRep C P kp S)
    (input : Bytes) (n : Nat) (hn : (n + 7) / 8 ≤ input.length) (hlt : n + 7 < 2 ^ 64) :
    ∃ kv' o, saneCrypt C kp.kv input n = some (0, kv', o) ∧
      Holds o (Spec.xorBits ((Bits.ofBytes input).take n) (Spec.Farfalle.Sane.keystream P S n)) ∧ At C P kv' S.k S.hist := by
  unfold saneCrypt
  by_cases h0 : n = 0
  · subst h0
    refine ⟨kp.kv, [], by simp, ?_, ⟨_, h.rep⟩⟩
    simp [Holds, Spec.xorBits]
  · obtain ⟨kv1, o, h1, ho, r1⟩ := h.rep.outputNext hC hM n hlt
    obtain ⟨o', h2, ho'⟩ := ho.addIs (s := input) (by rw [length_output]; exact hn)
    rw [length_output] at h2 ho'
    refine ⟨kv1, o', ?_, ho', ⟨_, r1⟩⟩
    simp only [if_pos h0, Option.bind_eq_bind]
    rw [h1, Option.bind_some, if_neg (by simp), h2]
    rfl

theorem take_eq_nil {s : Bytes} {n : Nat} (h : (n + 7) / 8 ≤ s.length) : (Bits.ofBytes s).take n = [] ↔ n = 0 := by
  rw [← List.length_eq_zero_iff, length_take_ofBytes h]

/-- The additions to the history. -/
theorem saneNext_spec (hC : Valid C) (hM : Matches C P) {kv : Inst} {S : Spec.Farfalle.Session} (h : At C P kv S.k S.hist)
    (ad : Bytes) (adLen : Nat) (hadn : (adLen + 7) / 8 ≤ ad.length) (hadc : Clean ad adLen)
    (ct : Bytes) (n : Nat) (hctn : (n + 7) / 8 ≤ ct.length) (hctc : Clean ct n) :
    ∃ kv1 kv2, saneAddAD C kv S.e.toNat ad adLen n = some (0, kv1) ∧ saneAddCT C kv1 S.e.toNat ct n = some (0, kv2) ∧
      Rep C P kv2 ⟨S.k, (Spec.Farfalle.Sane.next S ((Bits.ofBytes ad).take adLen) ((Bits.ofBytes ct).take n)).hist, [], .input⟩ := by
  simp only [Spec.Farfalle.Sane.next, ne_eq, take_eq_nil hadn, take_eq_nil hctn, saneAddAD, saneAddCT]
  by_cases h0 : n = 0
  · simp only [h0, not_true_eq_false, or_true, if_true, if_false]
    obtain ⟨kv1, h1, r1⟩ := saneAddToHistory_spec hC hM h S.e false ad adLen hadn hadc
    exact ⟨kv1, kv1, h1, rfl, r1⟩
  · simp only [h0, not_false_eq_true, or_false, if_true]
    by_cases ha : adLen = 0
    · simp only [ha, not_true_eq_false, if_false]
      obtain ⟨kv1, h1, r1⟩ := saneAddToHistory_spec hC hM h S.e true ct n hctn hctc
      exact ⟨kv, kv1, rfl, h1, r1⟩
    · simp only [ha, not_false_eq_true, if_true]
      obtain ⟨kv1, h1, r1⟩ := saneAddToHistory_spec hC hM h S.e false ad adLen hadn hadc
      obtain ⟨kv2, h2, r2⟩ := saneAddToHistory_spec hC hM ⟨_, r1⟩ S.e true ct n hctn hctc
      exact ⟨kv1, kv2, h1, h2, r2⟩

theorem flip (e : Bool) : e.toNat ^^^ 1 = (!e).toNat := by cases e <;> rfl

theorem saneNext_k (S : Spec.Farfalle.Session) (A D : Bits) : (Spec.Farfalle.Sane.next S A D).k = S.k := rfl

theorem saneNext_e (S : Spec.Farfalle.Session) (A D : Bits) : (Spec.Farfalle.Sane.next S A D).e = !S.e := rfl

/-- `Wrap`. -/
theorem saneWrap_spec (hC : Valid C) (hM : Matches C P) {kp : Sess} {S : Spec.Farfalle.Session} (h : SaneRep C P kp S)
    (pt : Bytes) (n : Nat) (hn : (n + 7) / 8 ≤ pt.length) (hlt : n + 7 < 2 ^ 64) (ad : Bytes) (adLen : Nat)
    (hadn : (adLen + 7) / 8 ≤ ad.length) (hadc : Clean ad adLen) :
    ∃ kp' ct tag, saneWrap C kp pt n ad adLen = some (0, kp', ct, tag) ∧
      Holds ct (Spec.Farfalle.Sane.wrap P S ((Bits.ofBytes ad).take adLen) ((Bits.ofBytes pt).take n)).2.1 ∧
      Bits.ofBytes tag = (Spec.Farfalle.Sane.wrap P S ((Bits.ofBytes ad).take adLen) ((Bits.ofBytes pt).take n)).2.2 ∧
      SaneRep C P kp' (Spec.Farfalle.Sane.wrap P S ((Bits.ofBytes ad).take adLen) ((Bits.ofBytes pt).take n)).1 := by
  obtain ⟨kv1, ct, h1, hct, r1⟩ := saneCrypt_spec hC hM h pt n hn hlt
  have hl : (Spec.xorBits ((Bits.ofBytes pt).take n) (Spec.Farfalle.Sane.keystream P S n)).length = n := by
    rw [length_xorBits, length_take_ofBytes hn, Spec.Farfalle.Sane.keystream, length_output, Nat.min_self]
  have hctl := hct.length
  have hctc := hct.clean
  have hctt := hct.take
  rw [hl] at hctl hctc hctt
  obtain ⟨kv2, kv3, h2, h3, r3⟩ := saneNext_spec hC hM r1 ad adLen hadn hadc ct n (by omega) hctc
  obtain ⟨kv4, tag, h4, ht, r4⟩ := r3.output hC hM (SANE_TagLength * 8) (by decide) false false false (.inr (by decide))
  simp only [Spec.Farfalle.Sane.wrap, length_take_ofBytes hn]
  rw [hctt] at r4 ht
  refine ⟨⟨kv4, kp.e ^^^ 1⟩, ct, tag, ?_, hct, ?_, ⟨?_, r4⟩⟩
  · simp only [saneWrap, Option.bind_eq_bind]
    rw [h1, Option.bind_some, if_neg (by simp), h.e, h2, Option.bind_some, if_neg (by simp), h3, Option.bind_some,
      if_neg (by simp)]
    change (expand C kv3 (SANE_TagLength * 8) _).bind _ = _
    rw [h4]
    rfl
  · rw [Holds, length_output] at ht
    rw [ht]
    simp [saneNext_k, SANE_TagLength, Spec.Farfalle.Sane.t]
  · rw [h.e, flip]; rfl

theorem overwrite_zeros (pt : Bytes) : SnP.overwriteBytes pt (Bytes.zeros pt.length) 0 = some (Bytes.zeros pt.length) := by
  rw [SnP.overwriteBytes, if_pos (by simp [Bytes.length_zeros])]
  congr 1
  apply List.ext_getElem?
  intro i
  rw [Bytes.getElem?_setAt, Bytes.length_zeros]
  by_cases hi : i < pt.length
  · rw [List.getElem?_eq_getElem hi, Option.map_some, if_pos (by omega)]
    simp [Bytes.zeros, hi]
  · rw [List.getElem?_eq_none (by omega), List.getElem?_eq_none (by rw [Bytes.length_zeros]; omega)]
    rfl

/-- The result of `Unwrap` for a plaintext that the specification returns. -/
def Returns (c : Nat) (pt : Bytes) (n : Nat) (r : Option Bits) : Prop :=
  (∃ M, r = some M ∧ c = 0 ∧ Holds pt M) ∨ (r = none ∧ c = 1 ∧ pt = Bytes.zeros ((n + 7) / 8))

/-- `Unwrap`. -/
theorem saneUnwrap_spec (hC : Valid C) (hM : Matches C P) {kp : Sess} {S : Spec.Farfalle.Session} (h : SaneRep C P kp S)
    (ct : Bytes) (n : Nat) (hn : (n + 7) / 8 ≤ ct.length) (hlt : n + 7 < 2 ^ 64) (hctc : Clean ct n) (ad : Bytes) (adLen : Nat)
    (hadn : (adLen + 7) / 8 ≤ ad.length) (hadc : Clean ad adLen) (tag : Bytes) (htag : tag.length = 16) :
    ∃ kp' c pt, saneUnwrap C kp ct n ad adLen tag = some (c, kp', pt) ∧
      Returns c pt n (Spec.Farfalle.Sane.unwrap P S ((Bits.ofBytes ad).take adLen) ((Bits.ofBytes ct).take n) (Bits.ofBytes tag)).2 ∧
      SaneRep C P kp'
        (Spec.Farfalle.Sane.unwrap P S ((Bits.ofBytes ad).take adLen) ((Bits.ofBytes ct).take n) (Bits.ofBytes tag)).1 := by
  obtain ⟨kv1, pt, h1, hpt, r1⟩ := saneCrypt_spec hC hM h ct n hn hlt
  have hl : (Spec.xorBits ((Bits.ofBytes ct).take n) (Spec.Farfalle.Sane.keystream P S n)).length = n := by
    rw [length_xorBits, length_take_ofBytes hn, Spec.Farfalle.Sane.keystream, length_output, Nat.min_self]
  have hptl := hpt.length
  rw [hl] at hptl
  obtain ⟨kv2, kv3, h2, h3, r3⟩ := saneNext_spec hC hM r1 ad adLen hadn hadc ct n hn hctc
  obtain ⟨kv4, t', h4, ht, r4⟩ := r3.output hC hM (SANE_TagLength * 8) (by decide) false false false (.inr (by decide))
  have ht' : Bits.ofBytes t' = Spec.Farfalle.output P S.k
      (Spec.Farfalle.Sane.next S ((Bits.ofBytes ad).take adLen) ((Bits.ofBytes ct).take n)).hist 0 Spec.Farfalle.Sane.t := by
    rw [Holds, length_output] at ht
    rw [ht]
    simp [SANE_TagLength, Spec.Farfalle.Sane.t]
  simp only [Spec.Farfalle.Sane.unwrap, length_take_ofBytes hn, saneNext_k, ← ht']
  have hm : (n + 7) % 2 ^ 64 / 8 = pt.length := by rw [Nat.mod_eq_of_lt hlt, hptl]
  have hrep : SaneRep C P ⟨kv4, kp.e ^^^ 1⟩
      (Spec.Farfalle.Sane.next S ((Bits.ofBytes ad).take adLen) ((Bits.ofBytes ct).take n)) :=
    ⟨by rw [h.e, flip]; rfl, r4⟩
  have hrun : saneUnwrap C kp ct n ad adLen tag =
      if t' ≠ tag then some (1, ⟨kv4, kp.e ^^^ 1⟩, Bytes.zeros pt.length) else some (0, ⟨kv4, kp.e ^^^ 1⟩, pt) := by
    simp only [saneUnwrap, Option.bind_eq_bind]
    rw [h1, Option.bind_some, if_neg (by simp), h.e, h2, Option.bind_some, if_neg (by simp), h3, Option.bind_some,
      if_neg (by simp)]
    change (expand C kv3 (SANE_TagLength * 8) { init := false, last := false, short := false }).bind _ = _
    rw [h4, Option.bind_some, if_neg (by simp), readBuf_all (n := SANE_TagLength) htag, Option.bind_some, hm]
    dsimp only
    rw [overwrite_zeros]
    rfl
  by_cases htt : t' = tag
  · rw [if_neg (by simp [htt])] at hrun
    refine ⟨_, _, _, hrun, .inl ⟨_, if_pos (by rw [htt]), rfl, hpt⟩, hrep⟩
  · rw [if_pos htt] at hrun
    refine ⟨_, _, _, hrun, .inr ⟨if_neg (fun hh => htt (Bits.ofBytes_injective hh)), rfl, by rw [hptl]⟩, hrep⟩

end Farfalle
