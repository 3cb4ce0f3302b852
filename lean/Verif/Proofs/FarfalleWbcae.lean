import Verif.Proofs.FarfalleWbc

/-! Authenticated encryption with the wide block cipher. -/

namespace Farfalle

variable {C : Cfg} {P : Spec.Farfalle.Par}

theorem setAt_eq (s d : Bytes) (off : Nat) (h : off + d.length ≤ s.length) :
    Bytes.setAt s off d = s.take off ++ d ++ s.drop (off + d.length) := by
  apply List.ext_getElem?
  intro i
  rw [Bytes.getElem?_setAt, List.append_assoc]
  by_cases h1 : i < off
  · rw [List.getElem?_append_left (by rw [List.length_take]; omega), List.getElem?_take, if_pos h1]
    rw [List.getElem?_eq_getElem (by omega), Option.map_some, if_neg (by omega)]
  · rw [List.getElem?_append_right (by rw [List.length_take]; omega), List.length_take, Nat.min_eq_left (by omega)]
    by_cases h2 : i < off + d.length
    · rw [List.getElem?_append_left (by omega), List.getElem?_eq_getElem (show i < s.length by omega), Option.map_some,
        if_pos (by omega), List.getD_eq_getElem?_getD, List.getElem?_eq_getElem (show i - off < d.length by omega)]
      rfl
    · rw [List.getElem?_append_right (by omega), List.getElem?_drop, show off + d.length + (i - off - d.length) = i by omega]
      cases s[i]? with
      | none => rfl
      | some x => rw [Option.map_some, if_neg (by omega)]

/-- The plaintext buffer with the zeros appended. -/
def Extended (pt pt' : Bytes) (n : Nat) : Prop :=
  pt'.length = pt.length ∧ (Bits.ofBytes pt').take (n + 128) = (Bits.ofBytes pt).take n ++ List.replicate 128 false

theorem wbcaeEncipher_eq (kv : Inst) (pt : Bytes) (n : Nat) (hn : (n + 7) / 8 + 16 ≤ pt.length) (ad : Bytes) (adLen : Nat) :
    ∃ pt', Extended pt pt' n ∧ wbcaeEncipher C kv pt n ad adLen =
      (wbcEncipher C kv pt' ((n + 128) % 2 ^ 64) ad adLen).bind fun p => some (p.1, p.2.1, p.2.2, pt') := by
  unfold wbcaeEncipher
  dsimp only
  by_cases h8 : n % 8 = 0
  · refine ⟨Bytes.setAt pt (n / 8) (Bytes.zeros 16), ⟨Bytes.length_setAt .., ?_⟩, ?_⟩
    · rw [setAt_eq _ _ _ (by rw [Bytes.length_zeros]; omega), Bits.ofBytes_append, Bits.ofBytes_append, Bits.ofBytes_zeros,
        List.take_append_of_le_length, List.take_of_length_le, ← Bits.take_ofBytes, show 8 * (n / 8) = n by omega]
      · rw [List.length_append, List.length_replicate, Bits.length_ofBytes, List.length_take]; omega
      · rw [List.length_append, List.length_replicate, Bits.length_ofBytes, List.length_take]; omega
    · rw [if_neg (by omega)]
      simp only [Option.bind_eq_bind]
      rw [show SnP.overwriteBytes pt (Bytes.zeros (WBCAE_t / 8)) (n / 8) = some (Bytes.setAt pt (n / 8) (Bytes.zeros 16)) from
        if_pos (by rw [Bytes.length_zeros, WBCAE_t]; omega), Option.bind_some]
      rfl
  · obtain ⟨d, hd⟩ : ∃ d, pt[n / 8]? = some d := ⟨pt[n / 8]'(by omega), List.getElem?_eq_getElem _⟩
    refine ⟨Bytes.setAt pt (n / 8) ([d &&& BitVec.ofNat 8 (2 ^ (n % 8) - 1)] ++ Bytes.zeros 16), ⟨Bytes.length_setAt .., ?_⟩, ?_⟩
    · rw [setAt_eq _ _ _ (by rw [List.length_append, Bytes.length_zeros, List.length_singleton]; omega), Bits.ofBytes_append,
        Bits.ofBytes_append, Bits.ofBytes_append, Bits.ofBytes_zeros, take_ofBytes_byte pt n d hd,
        show Bits.ofBytes [d &&& BitVec.ofNat 8 (2 ^ (n % 8) - 1)] = Bits.ofByte (d &&& BitVec.ofNat 8 (2 ^ (n % 8) - 1)) by simp,
        ofByte_mask _ _ (by omega)]
      have hl1 : (Bits.ofBytes (pt.take (n / 8))).length = n - n % 8 := by
        rw [Bits.length_ofBytes, List.length_take]; omega
      have hl2 : ((Bits.ofByte d).take (n % 8)).length = n % 8 := by
        rw [List.length_take, Bits.length_ofByte]; omega
      generalize Bits.ofBytes (pt.take (n / 8)) = X at *
      generalize (Bits.ofByte d).take (n % 8) = Y at *
      generalize Bits.ofBytes (pt.drop _) = Z
      have : X ++ (Y ++ List.replicate (8 - n % 8) false ++ List.replicate (8 * 16) false) ++ Z =
          (X ++ Y ++ List.replicate 128 false) ++ (List.replicate (8 - n % 8) false ++ Z) := by
        have : List.replicate (8 - n % 8) false ++ List.replicate (8 * 16) false =
            List.replicate 128 false ++ List.replicate (8 - n % 8) false := by
          rw [List.replicate_append_replicate, List.replicate_append_replicate, Nat.add_comm]
        rw [List.append_assoc Y, this]
        simp only [List.append_assoc]
      rw [this, List.take_append_of_le_length, List.take_of_length_le]
      · simp only [List.length_append, List.length_replicate]; omega
      · simp only [List.length_append, List.length_replicate]; omega
    · rw [if_pos h8]
      simp only [Option.bind_eq_bind]
      rw [hd, Option.bind_some,
        show SnP.overwriteBytes (Bytes.setAt pt (n / 8) [d &&& BitVec.ofNat 8 (2 ^ (n % 8) - 1)]) (Bytes.zeros (WBCAE_t / 8)) (n / 8 + 1) =
          some (Bytes.setAt (Bytes.setAt pt (n / 8) [d &&& BitVec.ofNat 8 (2 ^ (n % 8) - 1)]) (n / 8 + 1) (Bytes.zeros 16)) from
        if_pos (by rw [Bytes.length_zeros, Bytes.length_setAt, WBCAE_t]; omega), Option.bind_some]
      rw [show n / 8 + 1 = n / 8 + [d &&& BitVec.ofNat 8 (2 ^ (n % 8) - 1)].length from rfl, Bytes.setAt_append]
      rfl

theorem byte_high : ∀ r < 8, ∀ d < 256, (BitVec.ofNat 8 d &&& ~~~ BitVec.ofNat 8 (2 ^ r - 1) = 0 ↔
    (Bits.ofByte (BitVec.ofNat 8 d)).drop r = List.replicate (8 - r) false) := by decide +kernel

theorem eq_zeros_iff (t : Bytes) (n : Nat) (h : t.length = n) : t = Bytes.zeros n ↔ Bits.ofBytes t = List.replicate (8 * n) false := by
  rw [← Bits.ofBytes_zeros]
  exact ⟨fun e => by rw [e], fun e => Bits.ofBytes_injective e⟩

/-- The buffer is wiped. -/
theorem overwrite_all' (pt : Bytes) (n : Nat) (h : pt.length = n) : SnP.overwriteBytes pt (Bytes.zeros n) 0 = some (Bytes.zeros n) := by
  subst h; exact overwrite_zeros pt

theorem wbcaeCompare_eq (pt : Bytes) (n : Nat) (h : pt.length = (n + 128 + 7) / 8) (hlt : n + 128 + 7 < 2 ^ 64) :
    wbcaeCompare pt n = some (if Bits.ofBytes (pt.drop ((n + 7) / 8)) = List.replicate 128 false then (0, pt)
      else (1, Bytes.zeros ((n + 128 + 7) / 8))) := by
  simp only [wbcaeCompare, WBCAE_t, Option.bind_eq_bind]
  have hl : (pt.drop ((n + 7) / 8)).length = 128 / 8 := by rw [List.length_drop]; omega
  rw [Nat.mod_eq_of_lt (show n + 7 < 2 ^ 64 by omega), Nat.mod_eq_of_lt hlt, readBuf_all hl, Option.bind_some, overwrite_all' _ _ h]
  have hiff : pt.drop ((n + 7) / 8) = Bytes.zeros (128 / 8) ↔ Bits.ofBytes (pt.drop ((n + 7) / 8)) = List.replicate 128 false :=
    eq_zeros_iff _ _ hl
  by_cases hz : pt.drop ((n + 7) / 8) = Bytes.zeros (128 / 8)
  · refine (if_neg (not_not.mpr hz)).trans ?_
    rw [if_pos (hiff.mp hz)]
  · refine (if_pos hz).trans ?_
    rw [if_neg (fun h' => hz (hiff.mpr h'))]
    rfl

/-- The checks accept exactly if the 128 bits after the text are zero. -/
theorem wbcaeCheck_spec {pt : Bytes} {X : Bits} {n : Nat} (h : Holds pt X) (hX : X.length = n + 128) (hlt : n + 128 + 7 < 2 ^ 64) :
    wbcaeCheck pt n = some (if X.drop n = List.replicate 128 false then (0, pt) else (1, Bytes.zeros ((n + 128 + 7) / 8))) := by
  have hpl : pt.length = (n + 128 + 7) / 8 := by rw [h.length, hX]
  have hdl : (X.drop n).length = 128 := by rw [List.length_drop]; omega
  have hall : (Bits.ofBytes pt).drop n = X.drop n ++ List.replicate ((8 - n % 8) % 8) false := by
    rw [show Bits.ofBytes pt = _ from h, List.drop_append_of_le_length (by omega), hX, show (n + 128) % 8 = n % 8 by omega]
  have hiff : X.drop n = List.replicate 128 false ↔ (Bits.ofBytes pt).drop n = List.replicate (128 + (8 - n % 8) % 8) false := by
    rw [hall, ← List.replicate_append_replicate]
    exact ⟨fun e => by rw [e], fun e => List.append_cancel_right e⟩
  unfold wbcaeCheck
  by_cases h8 : n % 8 = 0
  · rw [if_neg (by omega), wbcaeCompare_eq pt n hpl hlt, ← Bits.drop_ofBytes, show 8 * ((n + 7) / 8) = n by omega]
    simp only [hiff, h8, Nat.sub_zero, Nat.mod_self, Nat.add_zero]
  · rw [if_pos h8]
    obtain ⟨d, hd⟩ : ∃ d, pt[n / 8]? = some d := ⟨pt[n / 8]'(by omega), List.getElem?_eq_getElem _⟩
    simp only [Option.bind_eq_bind]
    rw [hd, Option.bind_some]
    have hsplit : (Bits.ofBytes pt).drop n = (Bits.ofByte d).drop (n % 8) ++ Bits.ofBytes (pt.drop ((n + 7) / 8)) := by
      have hi : n / 8 < pt.length := by omega
      have hdd : pt[n / 8] = d := by rw [List.getElem?_eq_getElem hi] at hd; exact Option.some.inj hd
      have : (Bits.ofBytes pt).drop n = ((Bits.ofBytes pt).drop (8 * (n / 8))).drop (n % 8) := by
        rw [List.drop_drop]; congr 1; omega
      rw [this, Bits.drop_ofBytes, List.drop_eq_getElem_cons hi, hdd, Bits.ofBytes_cons,
        List.drop_append_of_le_length (by rw [Bits.length_ofByte]; omega), show n / 8 + 1 = (n + 7) / 8 by omega]
    have hb := byte_high (n % 8) (Nat.mod_lt _ (by omega)) d.toNat d.isLt
    rw [BitVec.ofNat_toNat, BitVec.setWidth_eq] at hb
    have hcond : X.drop n = List.replicate 128 false ↔ (d &&& ~~~ BitVec.ofNat 8 (2 ^ (n % 8) - 1) = 0) ∧
        Bits.ofBytes (pt.drop ((n + 7) / 8)) = List.replicate 128 false := by
      rw [hiff, hsplit, hb, Nat.mod_eq_of_lt (show 8 - n % 8 < 8 by omega), Nat.add_comm 128, ← List.replicate_append_replicate]
      constructor
      · intro e
        exact List.append_inj e (by rw [List.length_drop, Bits.length_ofByte, List.length_replicate])
      · rintro ⟨e1, e2⟩; rw [e1, e2]
    by_cases hz : d &&& ~~~ BitVec.ofNat 8 (2 ^ (n % 8) - 1) = 0
    · rw [if_neg (by simpa using hz), wbcaeCompare_eq pt n hpl hlt]
      simp only [hcond, hz, true_and]
    · rw [if_pos hz, WBCAE_t, Nat.mod_eq_of_lt hlt, overwrite_all' _ _ hpl, Option.bind_some, if_neg (by rw [hcond]; exact fun e => hz e.1)]

/-- `Encipher` of WBC-AE. -/
theorem wbcaeEncipher_spec (hC : Valid C) (hM : Matches C P) {kv : Inst} {S : Spec.Farfalle.Obj} (h : Rep C P kv S) (pt : Bytes)
    (n : Nat) (hn : (n + 7) / 8 + 16 ≤ pt.length) (hlt : n + 128 + 7 < 2 ^ 64) (split : Nat → Nat)
    (hsp : wbcSplit C (n + 128) = some (split (n + 128))) (hle : split (n + 128) ≤ n + 128) (h8 : 8 ∣ split (n + 128))
    (w : Bytes) (wLen : Nat) (hw : (wLen + 7) / 8 ≤ w.length) (hc : Clean w wLen) :
    ∃ kv' ct pt' S', wbcaeEncipher C kv pt n w wLen = some (0, kv', ct, pt') ∧ Extended pt pt' n ∧
      Holds ct (Spec.Farfalle.Wbcae.wrap P split S.k ((Bits.ofBytes w).take wLen) ((Bits.ofBytes pt).take n)) ∧
      Rep C P kv' S' ∧ S'.k = S.k := by
  obtain ⟨pt', he, hrun⟩ := wbcaeEncipher_eq (C := C) kv pt n hn w wLen
  obtain ⟨kv', ct, S', h1, h2, h3, h4⟩ := wbcEncipher_spec hC hM h pt' (n + 128) _ (by rw [he.1]; omega) (by omega) hsp hle h8 w wLen hw hc
  rw [Nat.mod_eq_of_lt (by omega), h1] at hrun
  refine ⟨kv', ct, pt', S', hrun, he, ?_, h3, h4⟩
  rw [he.2] at h2
  rw [Spec.Farfalle.Wbcae.wrap, length_take_ofBytes (by omega)]
  exact h2

/-- `Decipher` of WBC-AE. -/
theorem wbcaeDecipher_spec (hC : Valid C) (hM : Matches C P) {kv : Inst} {S : Spec.Farfalle.Obj} (h : Rep C P kv S) (ct : Bytes)
    (n : Nat) (hn : (n + 128 + 7) / 8 ≤ ct.length) (hlt : n + 128 + 7 < 2 ^ 64) (split : Nat → Nat)
    (hsp : wbcSplit C (n + 128) = some (split (n + 128))) (hle : split (n + 128) ≤ n + 128) (h8 : 8 ∣ split (n + 128))
    (w : Bytes) (wLen : Nat) (hw : (wLen + 7) / 8 ≤ w.length) (hc : Clean w wLen) :
    ∃ kv' c pt S', wbcaeDecipher C kv ct n w wLen = some (c, kv', pt) ∧
      ((∃ M, Spec.Farfalle.Wbcae.unwrap P split S.k ((Bits.ofBytes w).take wLen) ((Bits.ofBytes ct).take (n + 128)) = some M ∧ c = 0 ∧
          Holds pt (M ++ List.replicate 128 false)) ∨
        (Spec.Farfalle.Wbcae.unwrap P split S.k ((Bits.ofBytes w).take wLen) ((Bits.ofBytes ct).take (n + 128)) = none ∧ c = 1 ∧
          pt = Bytes.zeros ((n + 128 + 7) / 8))) ∧
      Rep C P kv' S' ∧ S'.k = S.k := by
  obtain ⟨kv', pt, S', h1, h2, h3, h4⟩ := wbcDecipher_spec hC hM h ct (n + 128) _ hn (by omega) hsp hle h8 w wLen hw hc
  have hcl := length_take_ofBytes hn
  have hXl := length_decipher (P := P) S.k ((Bits.ofBytes w).take wLen) (split (n + 128)) ((Bits.ofBytes ct).take (n + 128)) (by omega)
  rw [hcl] at hXl
  have hck := wbcaeCheck_spec h2 hXl hlt
  dsimp only [Spec.Farfalle.Wbcae.unwrap]
  rw [hcl, show Spec.Farfalle.Wbcae.t = 128 from rfl, Nat.add_sub_cancel]
  simp only [wbcaeDecipher, WBCAE_t, Option.bind_eq_bind]
  rw [Nat.mod_eq_of_lt (by omega), h1, Option.bind_some, if_neg (by simp), hck, Option.bind_some]
  generalize Spec.Farfalle.Wbc.decipher P S.k ((Bits.ofBytes w).take wLen) (split (n + 128)) ((Bits.ofBytes ct).take (n + 128)) = X at *
  by_cases hz : X.drop n = List.replicate 128 false
  · rw [if_pos hz, if_pos hz]
    refine ⟨kv', 0, pt, S', rfl, .inl ⟨_, rfl, rfl, ?_⟩, h3, h4⟩
    rw [← hz, List.take_append_drop]
    exact h2
  · rw [if_neg hz, if_neg hz]
    exact ⟨kv', 1, _, S', rfl, .inr ⟨rfl, rfl, rfl⟩, h3, h4⟩

end Farfalle
