import Verif.Proofs.FarfalleSane

/-! SANSE on top of Kravatte and Xoofff. -/

namespace Farfalle

variable {C : Cfg} {P : Spec.Farfalle.Par}

/-- The appendices in use. -/
def appendices : List Bits := [[false], [false, true], [true, true]]

theorem sanse_byte_zero : ∀ ap ∈ appendices, ∀ e : Bool,
    Holds [BitVec.ofNat 8 (Bits.toNat ap ||| e.toNat <<< ap.length)] (ap ++ [e]) := by decide +kernel

theorem sanse_byte_small : ∀ ap ∈ appendices, ∀ r < 8, r ≤ 8 - (ap.length + 1) → ∀ d < 256, ∀ e : Bool,
    Holds [BitVec.ofNat 8 (d &&& (2 ^ r - 1) ||| Bits.toNat ap <<< r ||| e.toNat <<< (r + ap.length))]
      ((Bits.ofByte (BitVec.ofNat 8 d)).take r ++ (ap ++ [e])) := by decide +kernel

theorem sanse_byte_first : ∀ ap ∈ appendices, ∀ r < 8, ¬r ≤ 8 - (ap.length + 1) → ∀ d < 256,
    Holds [BitVec.ofNat 8 (d &&& (2 ^ r - 1) ||| (Bits.toNat ap &&& (2 ^ (8 - r) - 1)) <<< r)]
      ((Bits.ofByte (BitVec.ofNat 8 d)).take r ++ ap.take (8 - r)) := by decide +kernel

theorem sanse_byte_second : ∀ ap ∈ appendices, ∀ r < 8, ¬r ≤ 8 - (ap.length + 1) → ∀ e : Bool,
    Holds [BitVec.ofNat 8 (Bits.toNat ap >>> (8 - r) ||| e.toNat <<< (ap.length - (8 - r)))] (ap.drop (8 - r) ++ [e]) := by
  decide +kernel

theorem appendices_le : ∀ ap ∈ appendices, ∀ r < 8, ¬r ≤ 8 - (ap.length + 1) → 8 - r ≤ ap.length := by decide

/-- `AddToHistory` adds the string `data || appendix || e`. -/
theorem sanseAddToHistory_spec (hC : Valid C) (hM : Matches C P) {kv : Inst} {k : Bits} {hist : List Bits} (h : At C P kv k hist)
    (e : Bool) (ap : Bits) (hap : ap ∈ appendices) (data : Bytes) (n : Nat) (hn : (n + 7) / 8 ≤ data.length) :
    ∃ kv', sanseAddToHistory C kv e.toNat data n (Bits.toNat ap) ap.length = some (0, kv') ∧
      Rep C P kv' ⟨k, hist ++ [(Bits.ofBytes data).take n ++ (ap ++ [e])], [], .input⟩ := by
  obtain ⟨m, h⟩ := h.rep
  obtain ⟨kv1, h1, r1⟩ := h.piece hC hM data (n / 8 * 8) false (by omega) (by omega)
  rw [if_neg (by simp), if_neg (by simp), List.nil_append, Nat.mul_comm, Bits.take_ofBytes] at r1
  simp only [sanseAddToHistory, Option.bind_eq_bind]
  rw [show ({} : Flags) = { init := false } from rfl, h1, Option.bind_some, if_neg (by simp)]
  by_cases h8 : n % 8 = 0
  · rw [if_pos h8]
    obtain ⟨kv2, h2, r2⟩ := r1.lastByte hC hM _ _ (ap.length + 1) false (sanse_byte_zero ap hap e) (by simp)
    refine ⟨kv2, h2, ?_⟩
    rw [take_ofBytes', h8, List.take_zero, List.append_nil]
    exact r2
  · rw [if_neg h8]
    obtain ⟨d, hd⟩ : ∃ d, data[n / 8]? = some d := ⟨data[n / 8]'(by omega), List.getElem?_eq_getElem _⟩
    rw [hd, Option.bind_some, take_ofBytes_byte data n d hd, List.append_assoc]
    have hr : n % 8 < 8 := Nat.mod_lt _ (by omega)
    by_cases h6 : n % 8 ≤ 8 - (ap.length + 1)
    · rw [if_pos h6]
      have hb := sanse_byte_small ap hap (n % 8) hr h6 d.toNat d.isLt e
      rw [BitVec.ofNat_toNat, BitVec.setWidth_eq] at hb
      exact r1.lastByte hC hM _ _ _ false hb (by simp; omega)
    · rw [if_neg h6]
      have hle := appendices_le ap hap _ hr h6
      have hb := sanse_byte_first ap hap (n % 8) hr h6 d.toNat d.isLt
      rw [BitVec.ofNat_toNat, BitVec.setWidth_eq] at hb
      have hll : ((Bits.ofByte d).take (n % 8) ++ ap.take (8 - n % 8)).length = 8 := by
        rw [List.length_append, List.length_take, List.length_take, Bits.length_ofByte]; omega
      generalize BitVec.ofNat 8 (d.toNat &&& (2 ^ (n % 8) - 1) ||| (Bits.toNat ap &&& (2 ^ (8 - n % 8) - 1)) <<< (n % 8)) = b at hb ⊢
      obtain ⟨kv2, h2, r2⟩ := r1.piece hC hM [b] 8 false (by omega) (by simp)
      rw [h2, Option.bind_some, if_neg (by simp)]
      have hbl := hb.take
      rw [hll] at hbl
      rw [hbl, if_neg (by simp), if_neg (by simp)] at r2
      obtain ⟨kv3, h3, r3⟩ := r2.lastByte hC hM _ _ (ap.length - (8 - n % 8) + 1) false (sanse_byte_second ap hap _ hr h6 e)
        (by simp)
      refine ⟨kv3, h3, ?_⟩
      have hx : Bits.ofBytes (data.take (n / 8)) ++ ((Bits.ofByte d).take (n % 8) ++ ap.take (8 - n % 8)) ++
          (ap.drop (8 - n % 8) ++ [e]) = Bits.ofBytes (data.take (n / 8)) ++ ((Bits.ofByte d).take (n % 8) ++ (ap ++ [e])) := by
        conv_rhs => rw [← List.take_append_drop (8 - n % 8) ap]
        simp only [List.append_assoc]
      rw [hx] at r3
      exact r3

/-- The object of the code in a session. -/
structure SanseRep (C : Cfg) (P : Spec.Farfalle.Par) (kp : Sess) (S : Spec.Farfalle.Session) : Prop where
  e : kp.e = S.e.toNat
  at' : At C P kp.kv S.k S.hist

theorem sanseInitialize_spec (hC : Valid C) (hM : Matches C P) (kp : Sess) (hs : Sized C kp.kv) (key : Bytes) (keyLen : Nat)
    (hk : (keyLen + 7) / 8 ≤ key.length) (hkb : keyLen < P.b) :
    ∃ kp', sanseInitialize C kp key keyLen = some (0, kp') ∧
      SanseRep C P kp' (Spec.Farfalle.Sanse.start P ((Bits.ofBytes key).take keyLen)) := by
  obtain ⟨kv1, h1, r1⟩ := maskDerivation_spec hC hM kp.kv hs key keyLen hk hkb
  refine ⟨⟨kv1, 0⟩, ?_, ⟨rfl, ⟨_, r1⟩⟩⟩
  simp only [sanseInitialize, Option.bind_eq_bind]
  rw [h1]
  rfl

/-- The history after the associated data, `n` being the length of the text. -/
def metaHist (S : Spec.Farfalle.Session) (A : Bits) (n : Nat) : List Bits :=
  if A ≠ [] ∨ n = 0 then S.hist ++ [A ++ [false, S.e]] else S.hist

theorem meta_eq (S : Spec.Farfalle.Session) (A M : Bits) : Spec.Farfalle.Sanse.meta S A M = metaHist S A M.length := by
  simp only [Spec.Farfalle.Sanse.meta, metaHist, List.length_eq_zero_iff]

/-- The addition of the associated data to the history; without text the history then ends with a new string. -/
theorem sanseAddAD_spec (hC : Valid C) (hM : Matches C P) {kp : Sess} {S : Spec.Farfalle.Session} (h : SanseRep C P kp S)
    (ad : Bytes) (adLen : Nat) (hadn : (adLen + 7) / 8 ≤ ad.length) (n : Nat) :
    ∃ kv', sanseAddAD C kp.kv kp.e ad adLen n = some (0, kv') ∧ At C P kv' S.k (metaHist S ((Bits.ofBytes ad).take adLen) n) ∧
      (n = 0 → Rep C P kv' ⟨S.k, metaHist S ((Bits.ofBytes ad).take adLen) n, [], .input⟩) := by
  simp only [metaHist, ne_eq, take_eq_nil hadn, sanseAddAD]
  by_cases ha : ¬adLen = 0 ∨ n = 0
  · rw [if_pos ha, if_pos ha]
    obtain ⟨kv1, h1, r1⟩ := sanseAddToHistory_spec hC hM h.at' S.e [false] (by decide) ad adLen hadn
    exact ⟨kv1, by rw [h.e]; exact h1, ⟨_, r1⟩, fun _ => r1⟩
  · rw [if_neg ha, if_neg ha]
    exact ⟨kp.kv, rfl, h.at', fun h0 => absurd (.inr h0) ha⟩

theorem tag_bits {o : Bytes} {k : Bits} {Q : Spec.Farfalle.Par} {hist : List Bits} {q n : Nat} (h : Holds o (Spec.Farfalle.output Q k hist q n))
    (h8 : n % 8 = 0) : Bits.ofBytes o = Spec.Farfalle.output Q k hist q n := by
  rw [Holds, length_output, h8] at h
  simpa using h

/-- `Wrap`, with text. -/
theorem sanseWrapData_spec (hC : Valid C) (hM : Matches C P) {kv : Inst} {S : Spec.Farfalle.Session} {hist : List Bits}
    (h : At C P kv S.k hist) (pt : Bytes) (n : Nat) (hn : (n + 7) / 8 ≤ pt.length) (hlt : n + 7 < 2 ^ 64) :
    ∃ kv' ct tag, sanseWrapData C kv S.e.toNat pt n = some (0, kv', ct, tag) ∧
      Bits.ofBytes tag = Spec.Farfalle.output P S.k (hist ++ [(Bits.ofBytes pt).take n ++ [false, true, S.e]]) 0 Spec.Farfalle.Sanse.t ∧
      Holds ct (Spec.xorBits ((Bits.ofBytes pt).take n) (Spec.Farfalle.Sanse.keystream P S hist (Bits.ofBytes tag) n)) ∧
      At C P kv' S.k (hist ++ [(Bits.ofBytes pt).take n ++ [false, true, S.e]]) := by
  obtain ⟨kv1, h1, r1⟩ := sanseAddToHistory_spec hC hM h S.e [false, true] (by decide) pt n hn
  obtain ⟨kv2, tag, h2, ht, r2⟩ := r1.output hC hM (SANSE_TagLength * 8) (by decide) false false false (.inr (by decide))
  have ht' := tag_bits ht (by decide)
  have htl : tag.length = 32 := by rw [ht.length, length_output]; rfl
  obtain ⟨kv3, h3, r3⟩ := sanseAddToHistory_spec hC hM h S.e [true, true] (by decide) tag (SANSE_TagLength * 8) (by rw [htl]; decide)
  rw [List.take_of_length_le (by rw [Bits.length_ofBytes, htl]; decide)] at r3
  obtain ⟨kv4, o, h4, ho, r4⟩ := r3.output hC hM n hlt false true false (.inl rfl)
  obtain ⟨ct, h5, hct⟩ := ho.addIs (s := pt) (by rw [length_output]; exact hn)
  rw [length_output] at h5 hct
  refine ⟨kv1, ct, tag, ?_, ht', hct, ⟨_, r1⟩⟩
  simp only [sanseWrapData, Option.bind_eq_bind]
  rw [show (sanseAddToHistory C kv S.e.toNat pt n 2 2) = some (0, kv1) from h1, Option.bind_some, if_neg (by simp)]
  change (expand C kv1 (SANSE_TagLength * 8) { init := false, last := false, short := false }).bind _ = _
  rw [h2, Option.bind_some, if_neg (by simp)]
  dsimp only
  rw [show (sanseAddToHistory C kv S.e.toNat tag (SANSE_TagLength * 8) 3 2) = some (0, kv3) from h3, Option.bind_some,
    if_neg (by simp), show expand C kv3 n { last := true } = _ from h4, Option.bind_some, if_neg (by simp), h5]
  rfl

/-- `Wrap`. -/
theorem sanseWrap_spec (hC : Valid C) (hM : Matches C P) {kp : Sess} {S : Spec.Farfalle.Session} (h : SanseRep C P kp S)
    (pt : Bytes) (n : Nat) (hn : (n + 7) / 8 ≤ pt.length) (hlt : n + 7 < 2 ^ 64) (ad : Bytes) (adLen : Nat)
    (hadn : (adLen + 7) / 8 ≤ ad.length) :
    ∃ kp' ct tag, sanseWrap C kp pt n ad adLen = some (0, kp', ct, tag) ∧
      Holds ct (Spec.Farfalle.Sanse.wrap P S ((Bits.ofBytes ad).take adLen) ((Bits.ofBytes pt).take n)).2.1 ∧
      Bits.ofBytes tag = (Spec.Farfalle.Sanse.wrap P S ((Bits.ofBytes ad).take adLen) ((Bits.ofBytes pt).take n)).2.2 ∧
      SanseRep C P kp' (Spec.Farfalle.Sanse.wrap P S ((Bits.ofBytes ad).take adLen) ((Bits.ofBytes pt).take n)).1 := by
  obtain ⟨kv1, h1, a1, r1⟩ := sanseAddAD_spec hC hM h ad adLen hadn n
  simp only [Spec.Farfalle.Sanse.wrap, Spec.Farfalle.Sanse.next, meta_eq, ne_eq, take_eq_nil hn, length_take_ofBytes hn]
  by_cases h0 : n = 0
  · simp only [h0, not_true_eq_false, if_false]
    obtain ⟨kv2, tag, h2, ht, r2⟩ := (r1 h0).output hC hM (SANSE_TagLength * 8) (by decide) false false false (.inr (by decide))
    rw [h0] at ht r2
    refine ⟨⟨kv2, kp.e ^^^ 1⟩, [], tag, ?_, ?_, tag_bits ht (by decide), ⟨by rw [h.e, flip], ⟨_, r2⟩⟩⟩
    · subst h0
      simp only [sanseWrap, Option.bind_eq_bind]
      rw [h1, Option.bind_some, if_neg (by simp), if_neg (by simp)]
      change (expand C kv1 (SANSE_TagLength * 8) { init := false, last := false, short := false }).bind _ = _
      rw [h2]
      rfl
    · simp [Holds, Spec.xorBits]
  · simp only [h0, not_false_eq_true, if_true]
    obtain ⟨kv2, ct, tag, h2, ht, hct, a2⟩ := sanseWrapData_spec hC hM a1 pt n hn hlt
    rw [ht] at hct
    refine ⟨⟨kv2, kp.e ^^^ 1⟩, ct, tag, ?_, hct, ht, ⟨by rw [h.e, flip], a2⟩⟩
    simp only [sanseWrap, Option.bind_eq_bind]
    rw [h1, Option.bind_some, if_neg (by simp), if_pos h0, h.e, h2]
    rfl

/-- `Unwrap`, with text. -/
theorem sanseUnwrapData_spec (hC : Valid C) (hM : Matches C P) {kv : Inst} {S : Spec.Farfalle.Session} {hist : List Bits}
    (h : At C P kv S.k hist) (ct : Bytes) (n : Nat) (h0 : n ≠ 0) (hn : (n + 7) / 8 ≤ ct.length) (hlt : n + 7 < 2 ^ 64) (tag : Bytes)
    (htl : tag.length = 32) :
    ∃ kv' pt, sanseUnwrapData C kv S.e.toNat ct n tag = some (0, kv', pt) ∧
      Holds pt (Spec.xorBits ((Bits.ofBytes ct).take n) (Spec.Farfalle.Sanse.keystream P S hist (Bits.ofBytes tag) n)) ∧
      Rep C P kv' ⟨S.k, hist ++ [Spec.xorBits ((Bits.ofBytes ct).take n) (Spec.Farfalle.Sanse.keystream P S hist (Bits.ofBytes tag) n) ++
        [false, true, S.e]], [], .input⟩ := by
  obtain ⟨kv3, h3, r3⟩ := sanseAddToHistory_spec hC hM h S.e [true, true] (by decide) tag (SANSE_TagLength * 8) (by rw [htl]; decide)
  rw [List.take_of_length_le (by rw [Bits.length_ofBytes, htl]; decide)] at r3
  obtain ⟨kv4, o, h4, ho, r4⟩ := r3.output hC hM n hlt false true false (.inl rfl)
  obtain ⟨pt, h5, hpt⟩ := ho.addIs (s := ct) (by rw [length_output]; exact hn)
  rw [length_output] at h5 hpt
  have hl : (Spec.xorBits ((Bits.ofBytes ct).take n) (Spec.Farfalle.Sanse.keystream P S hist (Bits.ofBytes tag) n)).length = n := by
    rw [length_xorBits, length_take_ofBytes hn, Spec.Farfalle.Sanse.keystream, length_output, Nat.min_self]
  have hpt' : Holds pt (Spec.xorBits ((Bits.ofBytes ct).take n) (Spec.Farfalle.Sanse.keystream P S hist (Bits.ofBytes tag) n)) := hpt
  have htk := hpt'.take
  have hpl := hpt'.length
  rw [hl] at htk hpl
  obtain ⟨kv6, h6, r6⟩ := sanseAddToHistory_spec hC hM h S.e [false, true] (by decide) pt n (by omega)
  rw [htk] at r6
  refine ⟨kv6, pt, ?_, hpt', r6⟩
  simp only [sanseUnwrapData, if_pos h0, Option.bind_eq_bind]
  rw [show (sanseAddToHistory C kv S.e.toNat tag (SANSE_TagLength * 8) 3 2) = some (0, kv3) from h3, Option.bind_some,
    if_neg (by simp), show expand C kv3 n { last := true } = _ from h4, Option.bind_some, if_neg (by simp), h5, Option.bind_some,
    show (sanseAddToHistory C kv S.e.toNat pt n 2 2) = some (0, kv6) from h6]
  rfl

/-- `Unwrap`. -/
theorem sanseUnwrap_spec (hC : Valid C) (hM : Matches C P) {kp : Sess} {S : Spec.Farfalle.Session} (h : SanseRep C P kp S)
    (ct : Bytes) (n : Nat) (hn : (n + 7) / 8 ≤ ct.length) (hlt : n + 7 < 2 ^ 64) (ad : Bytes) (adLen : Nat)
    (hadn : (adLen + 7) / 8 ≤ ad.length) (tag : Bytes) (htag : tag.length = 32) :
    ∃ kp' c pt, sanseUnwrap C kp ct n ad adLen tag = some (c, kp', pt) ∧
      Returns c pt n (Spec.Farfalle.Sanse.unwrap P S ((Bits.ofBytes ad).take adLen) ((Bits.ofBytes ct).take n) (Bits.ofBytes tag)).2 ∧
      SanseRep C P kp'
        (Spec.Farfalle.Sanse.unwrap P S ((Bits.ofBytes ad).take adLen) ((Bits.ofBytes ct).take n) (Bits.ofBytes tag)).1 := by
  obtain ⟨kv1, h1, a1, r1⟩ := sanseAddAD_spec hC hM h ad adLen hadn n
  have hl : ∀ hist, (Spec.xorBits ((Bits.ofBytes ct).take n)
      (Spec.Farfalle.Sanse.keystream P S hist (Bits.ofBytes tag) n)).length = n := by
    intro hist
    rw [length_xorBits, length_take_ofBytes hn, Spec.Farfalle.Sanse.keystream, length_output, Nat.min_self]
  simp only [Spec.Farfalle.Sanse.unwrap, Spec.Farfalle.Sanse.next, meta_eq, ne_eq, length_take_ofBytes hn, hl,
    ← List.length_eq_zero_iff]
  have key : ∃ kv2 pt hist', sanseUnwrapData C kv1 S.e.toNat ct n tag = some (0, kv2, pt) ∧
      Holds pt (Spec.xorBits ((Bits.ofBytes ct).take n) (Spec.Farfalle.Sanse.keystream P S
        (metaHist S ((Bits.ofBytes ad).take adLen) n) (Bits.ofBytes tag) n)) ∧
      hist' = (if ¬n = 0 then metaHist S ((Bits.ofBytes ad).take adLen) n ++ [Spec.xorBits ((Bits.ofBytes ct).take n)
        (Spec.Farfalle.Sanse.keystream P S (metaHist S ((Bits.ofBytes ad).take adLen) n) (Bits.ofBytes tag) n) ++
          [false, true, S.e]] else metaHist S ((Bits.ofBytes ad).take adLen) n) ∧
      Rep C P kv2 ⟨S.k, hist', [], .input⟩ := by
    by_cases h0 : n = 0
    · refine ⟨kv1, [], _, by simp [sanseUnwrapData, h0], ?_, rfl, ?_⟩
      · simp [Holds, Spec.xorBits, h0]
      · rw [if_neg (by simp [h0])]; exact r1 h0
    · obtain ⟨kv2, pt, h2, hpt, r2⟩ := sanseUnwrapData_spec hC hM a1 ct n h0 hn hlt tag htag
      exact ⟨kv2, pt, _, h2, hpt, rfl, by rw [if_pos h0]; exact r2⟩
  obtain ⟨kv2, pt, hist', h2, hpt, hh, r2⟩ := key
  rw [← hh]
  obtain ⟨kv4, t', h4, ht, r4⟩ := r2.output hC hM (SANSE_TagLength * 8) (by decide) false false false (.inr (by decide))
  have ht' : Bits.ofBytes t' = Spec.Farfalle.output P S.k hist' 0 Spec.Farfalle.Sanse.t := tag_bits ht (by decide)
  rw [← ht']
  have hptl := hpt.length
  rw [hl] at hptl
  have hm : (n + 7) % 2 ^ 64 / 8 = pt.length := by rw [Nat.mod_eq_of_lt hlt, hptl]
  have hrep : SanseRep C P ⟨kv4, kp.e ^^^ 1⟩ ⟨S.k, hist', !S.e⟩ := ⟨by rw [h.e, flip], ⟨_, r4⟩⟩
  have hrun : sanseUnwrap C kp ct n ad adLen tag =
      if t' ≠ tag then some (1, ⟨kv4, kp.e ^^^ 1⟩, Bytes.zeros pt.length) else some (0, ⟨kv4, kp.e ^^^ 1⟩, pt) := by
    simp only [sanseUnwrap, Option.bind_eq_bind]
    rw [h1, Option.bind_some, if_neg (by simp), h.e, h2, Option.bind_some, if_neg (by simp)]
    change (expand C kv2 (SANSE_TagLength * 8) { init := false, last := false, short := false }).bind _ = _
    rw [h4, Option.bind_some, if_neg (by simp), readBuf_all (n := SANSE_TagLength) htag, Option.bind_some, hm]
    dsimp only
    rw [overwrite_zeros]
    rfl
  by_cases htt : t' = tag
  · rw [if_neg (by simp [htt])] at hrun
    exact ⟨_, _, _, hrun, .inl ⟨_, if_pos (by rw [htt]), rfl, hpt⟩, hrep⟩
  · rw [if_pos htt] at hrun
    exact ⟨_, _, _, hrun, .inr ⟨if_neg (fun hh => htt (Bits.ofBytes_injective hh)), rfl, by rw [hptl]⟩, hrep⟩

end Farfalle
