import Verif.Proofs.Supercop
import Verif.Proofs.KeccakSum
import Verif.Props.Concrete
import Verif.Props.KeccakPOpt
import Verif.Props.Xoodyak

/-!
# C61: the SUPERCOP interface
-/

namespace Supercop

open Xoodyak (ofSt call_eq)

/-- C61 (encryption): for every message, associated data, nonce and key, `crypto_aead_encrypt` returns 0, sets `*clen`
to 16 more than the length of the message, and writes exactly the ciphertext and the tag of the specification: the
rest of the buffer is as it was. -/
theorem C61_encrypt (f : Bytes → Bytes) (hf : ∀ s : Bytes, s.length = 48 → (f s).length = 48) (full round3 : Bool)
    (c m ad npub k : Bytes) (hk : k.length = 16) (hn : npub.length = 16) (hc : m.length + 16 ≤ c.length)
    (hm : m.length + 16 < 2 ^ 64) :
    aeadEncrypt f full round3 c m ad npub k =
      some (0, m.length + 16, Spec.XoodyakAead.encrypt f round3 k npub ad m ++ c.drop (m.length + 16)) ∧
    (Spec.XoodyakAead.encrypt f round3 k npub ad m).length = m.length + 16 := by
  obtain ⟨h1, h48⟩ := setup_eq hf full round3 k npub ad hk hn
  obtain ⟨e1, e2, e3⟩ := encrypt_parts hf round3 k npub ad m h48
  obtain ⟨h2, h3, -⟩ := call_eq hf full _ h48 (.encrypt m)
  obtain ⟨h4, -, -⟩ := call_eq hf full _ h3 (.squeeze 16)
  refine ⟨?_, by rw [e1, List.length_append, e2, e3]⟩
  have w := writeBuf_two (p := c)
    (d := (Spec.Cyclist.crypt f (Spec.XoodyakAead.start f round3 k npub ad) m false).2)
    (e := (Spec.Cyclist.step f (Spec.Cyclist.crypt f (Spec.XoodyakAead.start f round3 k npub ad) m false).1
            (.squeeze 16)).2) (by omega)
  rw [e2, e3, ← e1, Option.bind_eq_some_iff] at w
  obtain ⟨c1, w1, w2⟩ := w
  rw [Option.bind_eq_some_iff] at h1
  obtain ⟨i, g1, g2⟩ := h1
  simp only [Xoodyak.call, Spec.Cyclist.step] at h2 h4 w2
  rw [aeadEncrypt, g1]
  simp only [Option.bind_eq_bind, Option.bind_some, g2, h2, w1, TAGLEN, h4, w2, Nat.mod_eq_of_lt hm]

/-- What `crypto_aead_decrypt` does with a ciphertext of at least 16 bytes. -/
theorem aeadDecrypt_eq (f : Bytes → Bytes) (hf : ∀ s : Bytes, s.length = 48 → (f s).length = 48) (full round3 : Bool)
    (m c ad npub k : Bytes) (hk : k.length = 16) (hn : npub.length = 16) (hc : 16 ≤ c.length)
    (hm : c.length - 16 ≤ m.length) :
    ∃ P : Bytes, P.length = c.length - 16 ∧
      (∀ P', Spec.XoodyakAead.encrypt f round3 k npub ad P' = c → P' = P) ∧
      (Spec.XoodyakAead.encrypt f round3 k npub ad P = c →
        aeadDecrypt f full round3 m c ad npub k = some (0, P.length, P ++ m.drop P.length)) ∧
      (Spec.XoodyakAead.encrypt f round3 k npub ad P ≠ c →
        aeadDecrypt f full round3 m c ad npub k = some (-1, 0, Bytes.zeros P.length ++ m.drop P.length)) := by
  obtain ⟨h1, h48⟩ := setup_eq hf full round3 k npub ad hk hn
  set S := Spec.XoodyakAead.start f round3 k npub ad with hS
  obtain ⟨l1, l2⟩ := Spec.Cyclist.crypt_inverse hf true S h48 (c.take (c.length - 16))
  obtain ⟨h2, h3, -⟩ := call_eq hf full S h48 (.decrypt (c.take (c.length - 16)))
  rw [show (!true) = false from rfl] at l2
  simp only [Xoodyak.call, Spec.Cyclist.step] at h2 h3
  set r := Spec.Cyclist.crypt f S (c.take (c.length - 16)) true with hr
  obtain ⟨h4, -, -⟩ := call_eq hf full r.1 h3 (.squeeze 16)
  have t16 := squeeze16 hf r.1 h3
  simp only [Xoodyak.call] at h4
  set t := (Spec.Cyclist.step f r.1 (.squeeze 16)).2 with ht
  have hlen : r.2.length = c.length - 16 := by rw [l1]; simp
  obtain ⟨e1, -, -⟩ := encrypt_parts hf round3 k npub ad r.2 h48
  rw [← hS, l2] at e1
  simp only [← ht] at e1
  rw [Option.bind_eq_some_iff] at h1
  obtain ⟨i, g1, g2⟩ := h1
  have hdrop : (c.drop (c.length - 16)).length = 16 := by simp; omega
  have hdec : aeadDecrypt f full round3 m c ad npub k =
      checkTag (r.2 ++ m.drop r.2.length) t c (c.length - 16) := by
    rw [aeadDecrypt, if_neg (by rw [TAGLEN]; omega)]
    simp only [Option.bind_eq_bind, TAGLEN, g1, Option.bind_some, g2, h2, writeBuf_zero (hlen ▸ hm), h4]
  have hiff : Spec.XoodyakAead.encrypt f round3 k npub ad r.2 = c ↔ t = c.drop (c.length - 16) := by
    rw [e1]
    constructor
    · intro h
      have := congrArg (List.drop (c.length - 16)) h
      rwa [List.drop_append_of_le_length (by simp), List.drop_eq_nil_of_le (by simp), List.nil_append] at this
    · intro h
      rw [h, List.take_append_drop]
  refine ⟨r.2, hlen, ?_, ?_, ?_⟩
  · intro P' h
    obtain ⟨p1, p2, p3⟩ := encrypt_parts hf round3 k npub ad P' h48
    rw [← hS] at p1 p2 p3
    rw [h] at p1
    obtain ⟨-, q⟩ := Spec.Cyclist.crypt_inverse hf false S h48 P'
    have hc' : c.take (c.length - 16) = (Spec.Cyclist.crypt f S P' false).2 := by
      have hl : c.length - 16 = (Spec.Cyclist.crypt f S P' false).2.length := by
        have := congrArg List.length p1
        rw [List.length_append, p3] at this
        omega
      rw [hl]
      conv_lhs => rw [p1]
      rw [List.take_left]
    rw [hr, hc', show true = !false from rfl, q]
  · intro h
    rw [hdec, checkTag, TAGLEN, readBuf_self hdrop]
    simp only [Option.bind_eq_bind, Option.bind_some]
    rw [if_neg (by rw [not_not]; exact hiff.1 h), hlen]
  · intro h
    rw [hdec, checkTag, TAGLEN, readBuf_self hdrop]
    simp only [Option.bind_eq_bind, Option.bind_some]
    rw [if_pos fun h' => h (hiff.2 h'), writeBuf_zero (by simp [hlen]), Option.bind_some, ← hlen]
    congr 3
    rw [Bytes.zeros, List.length_replicate, List.drop_left]

/-- C61 (decryption): `crypto_aead_decrypt` accepts exactly the outputs of the encryption of the specification, under
the same key, nonce and associated data, and then it returns the message.  Everything else is refused: -1 is returned,
`*mlen` is 0, and nothing of the decrypted text is left in the buffer.  Nothing outside of the place for the message
is written, and a ciphertext shorter than the tag is refused without writing at all. -/
theorem C61_decrypt (f : Bytes → Bytes) (hf : ∀ s : Bytes, s.length = 48 → (f s).length = 48) (full round3 : Bool)
    (m c ad npub k : Bytes) (hk : k.length = 16) (hn : npub.length = 16) (hm : c.length - 16 ≤ m.length) :
    (∀ P, Spec.XoodyakAead.encrypt f round3 k npub ad P = c →
      aeadDecrypt f full round3 m c ad npub k = some (0, P.length, P ++ m.drop P.length)) ∧
    ((∀ P, Spec.XoodyakAead.encrypt f round3 k npub ad P ≠ c) →
      aeadDecrypt f full round3 m c ad npub k =
        some (-1, 0, List.replicate (c.length - 16) 0 ++ m.drop (c.length - 16))) := by
  by_cases hc : 16 ≤ c.length
  · obtain ⟨P, h1, h2, h3, h4⟩ := aeadDecrypt_eq f hf full round3 m c ad npub k hk hn hc hm
    refine ⟨fun P' h => ?_, fun h => ?_⟩
    · obtain rfl := h2 P' h
      exact h3 h
    · rw [h4 (h P), h1, Bytes.zeros]
  · refine ⟨fun P h => ?_, fun h => ?_⟩
    · have := (C61_encrypt f hf full round3 (List.replicate (P.length + 16) 0) [] ad npub k hk hn (by simp) (by simp)).2
      obtain ⟨-, h48⟩ := setup_eq hf full round3 k npub ad hk hn
      obtain ⟨e1, e2, e3⟩ := encrypt_parts hf round3 k npub ad P h48
      have := congrArg List.length e1
      rw [h, List.length_append, e3] at this
      omega
    · have h0 : c.length - 16 = 0 := by omega
      rw [aeadDecrypt, if_pos (by rw [TAGLEN]; omega), h0]
      rfl

/-- C61 (round trip): what `crypto_aead_encrypt` has written is decrypted to the message, whatever the implementations
at both ends. -/
theorem C61_round_trip (f : Bytes → Bytes) (hf : ∀ s : Bytes, s.length = 48 → (f s).length = 48)
    (full full' round3 : Bool) (c m buf ad npub k : Bytes) (hk : k.length = 16) (hn : npub.length = 16)
    (hc : m.length + 16 ≤ c.length) (hm : m.length + 16 < 2 ^ 64) (hb : m.length ≤ buf.length) :
    ∃ n c', aeadEncrypt f full round3 c m ad npub k = some (0, n, c') ∧
      aeadDecrypt f full' round3 buf (c'.take n) ad npub k = some (0, m.length, m ++ buf.drop m.length) := by
  obtain ⟨h1, h2⟩ := C61_encrypt f hf full round3 c m ad npub k hk hn hc hm
  refine ⟨_, _, h1, ?_⟩
  rw [← h2, List.take_left]
  exact (C61_decrypt f hf full' round3 buf _ ad npub k hk hn (by rw [h2]; omega)).1 m rfl

/-- C61 (Xoodyak hash): `crypto_hash` writes the 32 bytes of the specification. -/
theorem C61_xoodyak_hash (f : Bytes → Bytes) (hf : ∀ s : Bytes, s.length = 48 → (f s).length = 48) (full : Bool)
    (out M : Bytes) (ho : 32 ≤ out.length) :
    xoodyakHash f full out M = some (0, Spec.XoodyakAead.hash f M ++ out.drop 32) ∧
      (Spec.XoodyakAead.hash f M).length = 32 := by
  obtain ⟨h1, h2⟩ := Xoodyak.initialize_eq hf full [] [] [] (Or.inl rfl)
  obtain ⟨h3, h4, h5⟩ := call_eq hf full _ h2 (.absorb M)
  obtain ⟨h6, h7, h8⟩ := call_eq hf full _ h4 (.squeeze 32)
  rw [Xoodyak.call, Option.map_eq_some_iff] at h3
  obtain ⟨i, g1, g2⟩ := h3
  rw [Prod.mk.injEq] at g2
  rw [g2.1] at g1
  have hk : (Spec.Cyclist.step f (Spec.Cyclist.cyclist f [] [] []) (.absorb M)).1.keyed = false := h5
  have hh : Spec.XoodyakAead.hash f M =
      (Spec.Cyclist.step f (Spec.Cyclist.step f (Spec.Cyclist.cyclist f [] [] []) (.absorb M)).1 (.squeeze 32)).2 := by
    rw [Spec.XoodyakAead.hash]
    simp only [Spec.Cyclist.run, List.flatten_cons, List.flatten_nil, List.append_nil]
    rfl
  rw [← hh] at h6
  have hl : (Spec.XoodyakAead.hash f M).length = 32 := by
    rw [hh]
    generalize (Spec.Cyclist.step f (Spec.Cyclist.cyclist f [] [] []) (.absorb M)).1 = S at h4 hk
    have hb : Spec.Cyclist.blockLengths (Spec.Cyclist.Rsqueeze S) 32 = [16, 16] := by
      rw [Spec.Cyclist.Rsqueeze, hk]; rfl
    have l1 := Xoodyak.length_goUp hf S h4 16 0x40
    have l2 := Xoodyak.length_goUp hf _ (Xoodyak.length_down _ l1 [] (by simp) 0) 16 0
    simp only [Spec.Cyclist.step, Spec.Cyclist.squeezeAny, hb, List.head!, List.tail, Spec.Cyclist.squeezeBlocks,
      List.append_nil, List.length_append]
    simp only [Spec.Cyclist.goUp, List.length_take] at l1 l2 ⊢
    rw [l1, l2]
    rfl
  refine ⟨?_, hl⟩
  rw [xoodyakHash, h1]
  simp only [Xoodyak.call] at h6
  simp only [Option.bind_eq_bind, Option.bind_some, g1, h6]
  rw [writeBuf_zero (by omega), hl]
  rfl

/-- C61 (with Xoodoo): the permutation of the reference code and that of the optimised code both are Xoodoo[12], so that
all of the above is about Xoodyak. -/
theorem C61_xoodyak (f : Bytes → Bytes) (hf : f = Xoodoo.Ref.permute12 ∨ f = Xoodyak.optPermute12) :
    (∀ s : Bytes, s.length = 48 → (f s).length = 48) ∧
    ∀ s : Bytes, s.length = 48 → Bits.ofBytes (f s) = Spec.Xoodoo.xoodoo 12 (Bits.ofBytes s) :=
  ⟨fun s hs => ((Xoodyak.C26_xoodyak f hf).1 s hs).1, fun s hs => ((Xoodyak.C26_xoodyak f hf).1 s hs).2⟩

theorem spongeInto_eq {P : SnP} {rate capacity : BitVec 32} {M : Bytes} {d : Byte} {n : Nat} {o : Bytes} {b : Bits}
    (h : Sponge.sponge P rate capacity M d n = some (0, o)) (hb : Bits.ofBytes o = b) (out : Bytes)
    (hl : b.length = 8 * n) (ho : n ≤ out.length) :
    ∃ o, spongeInto P rate capacity M d out n = some (0, o ++ out.drop n) ∧ Bits.ofBytes o = b := by
  have hn : o.length = n := by
    have := congrArg List.length hb
    rw [Bits.length_ofBytes, hl] at this
    omega
  refine ⟨o, ?_, hb⟩
  rw [spongeInto, h]
  simp only [Option.bind_eq_bind, Option.bind_some]
  rw [writeBuf_zero (by omega), hn]
  rfl

/-- C61 (SHA-3): the six `crypto_hash` functions on top of `KeccakWidth1600_Sponge` write the SHA-3 digest of the message,
resp. 168 and 136 bytes of SHAKE output, and nothing else, with every implementation of the permutation. -/
theorem C61_sha3 {P : SnP} (h : KeccakP1600.Computes P 24) (out M : Bytes) :
    (28 ≤ out.length → ∃ o, sha3_224 P out M = some (0, o ++ out.drop 28) ∧
      Bits.ofBytes o = Spec.SHA3 Spec.KeccakP.keccakF 224 (Bits.ofBytes M)) ∧
    (32 ≤ out.length → ∃ o, sha3_256 P out M = some (0, o ++ out.drop 32) ∧
      Bits.ofBytes o = Spec.SHA3 Spec.KeccakP.keccakF 256 (Bits.ofBytes M)) ∧
    (48 ≤ out.length → ∃ o, sha3_384 P out M = some (0, o ++ out.drop 48) ∧
      Bits.ofBytes o = Spec.SHA3 Spec.KeccakP.keccakF 384 (Bits.ofBytes M)) ∧
    (64 ≤ out.length → ∃ o, sha3_512 P out M = some (0, o ++ out.drop 64) ∧
      Bits.ofBytes o = Spec.SHA3 Spec.KeccakP.keccakF 512 (Bits.ofBytes M)) ∧
    (168 ≤ out.length → ∃ o, shake128 P out M = some (0, o ++ out.drop 168) ∧
      Bits.ofBytes o = Spec.SHAKE Spec.KeccakP.keccakF 128 (Bits.ofBytes M) (8 * 168)) ∧
    (136 ≤ out.length → ∃ o, shake256 P out M = some (0, o ++ out.drop 136) ∧
      Bits.ofBytes o = Spec.SHAKE Spec.KeccakP.keccakF 256 (Bits.ofBytes M) (8 * 136)) := by
  have h24 : ∀ S : Bits, S.length = 1600 → (Spec.KeccakP.keccakF S).length = 1600 :=
    fun S hS => KeccakSum.perm_length h.valid h.width (fun s hs => h.permute s (by rw [h.width]; exact hs)) S hS
  obtain ⟨⟨o1, a1, b1⟩, ⟨o2, a2, b2⟩, ⟨o3, a3, b3⟩, ⟨o4, a4, b4⟩, ⟨o5, a5, b5⟩, -⟩ := KeccakP1600.C10 h M 168
  obtain ⟨-, -, -, -, -, ⟨o6, a6, b6⟩⟩ := KeccakP1600.C10 h M 136
  exact ⟨spongeInto_eq a1 b1 out (Spec.length_sponge h24 (by omega) (by omega) _ _),
    spongeInto_eq a2 b2 out (Spec.length_sponge h24 (by omega) (by omega) _ _),
    spongeInto_eq a3 b3 out (Spec.length_sponge h24 (by omega) (by omega) _ _),
    spongeInto_eq a4 b4 out (Spec.length_sponge h24 (by omega) (by omega) _ _),
    spongeInto_eq a5 b5 out (Spec.length_sponge h24 (by omega) (by omega) _ _),
    spongeInto_eq a6 b6 out (Spec.length_sponge h24 (by omega) (by omega) _ _)⟩

-- hypotheses met: a message of 30 bytes, both versions of the mode, and the optimised Xoodoo code
example (round3 : Bool) : ∃ n c', aeadEncrypt Xoodyak.optPermute12 true round3 (List.replicate 50 7)
      (List.replicate 30 0x61) [1, 2, 3] (List.replicate 16 9) (List.replicate 16 5) = some (0, n, c') ∧
    aeadDecrypt Xoodyak.optPermute12 false round3 (List.replicate 31 1) (c'.take n) [1, 2, 3] (List.replicate 16 9)
      (List.replicate 16 5) = some (0, 30, List.replicate 30 0x61 ++ [1]) :=
  C61_round_trip _ (C61_xoodyak _ (Or.inr rfl)).1 true false round3 _ _ (List.replicate 31 1) _ _ _ (by simp) (by simp)
    (by simp) (by simp) (by simp)

-- the refusing case: at most one of two ciphertexts that only differ in the tag is accepted
example (round3 : Bool) (c t t' : Bytes) (ht : t.length = 16) (ht' : t'.length = 16) (hne : t ≠ t') (hc : c.length = 5)
    (h : (aeadDecrypt Xoodyak.optPermute12 true round3 (List.replicate 5 1) (c ++ t) [] (List.replicate 16 9)
      (List.replicate 16 5)).map (·.1) = some 0) :
    aeadDecrypt Xoodyak.optPermute12 true round3 (List.replicate 5 1) (c ++ t') [] (List.replicate 16 9)
      (List.replicate 16 5) = some (-1, 0, [0, 0, 0, 0, 0]) := by
  have hf := (C61_xoodyak _ (Or.inr rfl)).1
  obtain ⟨-, h2⟩ := C61_decrypt _ hf true round3 (List.replicate 5 1) (c ++ t) [] (List.replicate 16 9)
    (List.replicate 16 5) (by simp) (by simp) (by simp [hc, ht])
  obtain ⟨-, h4⟩ := C61_decrypt _ hf true round3 (List.replicate 5 1) (c ++ t') [] (List.replicate 16 9)
    (List.replicate 16 5) (by simp) (by simp) (by simp [hc, ht'])
  have hex : ∃ P, Spec.XoodyakAead.encrypt Xoodyak.optPermute12 round3 (List.replicate 16 5) (List.replicate 16 9) [] P =
      c ++ t := by
    by_contra hno
    rw [not_exists] at hno
    rw [h2 hno] at h
    simp at h
  obtain ⟨P, hP⟩ := hex
  rw [h4]
  · simp [hc, ht', List.replicate]
  · intro P' hP'
    obtain ⟨-, h48⟩ := setup_eq hf true round3 (List.replicate 16 5) (List.replicate 16 9) [] (by simp) (by simp)
    obtain ⟨p1, p2, p3⟩ := encrypt_parts hf round3 _ _ _ P h48
    obtain ⟨q1, q2, q3⟩ := encrypt_parts hf round3 _ _ _ P' h48
    rw [hP] at p1
    rw [hP'] at q1
    have e1 := List.append_inj_right' p1 (by rw [ht, p3])
    have e2 := List.append_inj_left' p1 (by rw [ht, p3])
    have e3 := List.append_inj_right' q1 (by rw [ht', q3])
    have e4 := List.append_inj_left' q1 (by rw [ht', q3])
    obtain ⟨-, i1⟩ := Spec.Cyclist.crypt_inverse hf false _ h48 P
    obtain ⟨-, i2⟩ := Spec.Cyclist.crypt_inverse hf false _ h48 P'
    rw [← e2] at i1
    rw [← e4] at i2
    have : P = P' := by
      rw [i1] at i2
      exact congrArg Prod.snd i2
    subst this
    exact hne (e1.trans e3.symm)

-- the reference and the optimised implementations of the permutation meet the hypothesis of `C61_sha3`
example (k : KeccakP1600.Opt64.Cfg) (E0 C0) (M : Bytes) :=
  (C61_sha3 (KeccakP1600.Opt64.computes24 k E0 C0) (List.replicate 28 0) M).1 (by simp)

end Supercop
