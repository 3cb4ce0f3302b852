import Verif.Proofs.CompactSponge
import Verif.Spec.FIPS202
import Verif.Spec.KeccakP

/-!
# C53: the standalone compact implementations are FIPS 202

`Keccak-readable-and-compact.c`, `Keccak-more-compact.c` and `TweetableFIPS202.c` of `Standalone/CompactFIPS202/C` share no
code with the library.  Their permutations are KECCAK-f[1600], their sponge functions are SPONGE with that permutation, and
the functions they export are the six functions of FIPS 202.
-/

namespace Compact202

open KeccakP1600 (Lane)

/-- `f` wrote the first `n` bytes of `out` and nothing else; their bits are `S`. -/
def Writes (res : Option Bytes) (out : Bytes) (n : Nat) (S : Bits) : Prop :=
  ∃ o : Bytes, res = some (o ++ out.drop n) ∧ o.length = n ∧ Bits.ofBytes o = S

/-! ## The permutations -/

/-- C53: the three permutations are KECCAK-f[1600], on every state. -/
theorem C53_permutations :
    (∀ s : Bytes, s.length = 200 → ∃ t, Readable.permute s = some t ∧ t.length = 200 ∧
      Bits.ofBytes t = Spec.KeccakP.keccakF (Bits.ofBytes s)) ∧
    (∀ s : Bytes, s.length = 200 → ∃ t, More.permute s = some t ∧ t.length = 200 ∧
      Bits.ofBytes t = Spec.KeccakP.keccakF (Bits.ofBytes s)) ∧
    (∀ w : List Lane, w.length = 25 → ∃ v, Tweet.permute w = some v ∧ v.length = 25 ∧
      Bits.ofBytes (v.flatMap KeccakP1600.bytesOfWord) =
        Spec.KeccakP.keccakF (Bits.ofBytes (w.flatMap KeccakP1600.bytesOfWord))) := by
  refine ⟨fun s hs => ?_, fun s hs => ?_, fun w hw => ?_⟩
  · have := KeccakP1600.C37_ref 24 (by decide) s hs
    exact ⟨_, Readable.permute_eq s hs, this.1, this.2⟩
  · have := KeccakP1600.C37_ref 24 (by decide) s hs
    exact ⟨_, More.permute_eq s hs, this.1, this.2⟩
  · obtain ⟨A, rfl⟩ : ∃ A, w = Tweet.enc A := by
      refine ⟨fun i => w[i.val]'(by omega), ?_⟩
      apply List.ext_getElem?
      intro i
      by_cases hi : i < 25
      · rw [Tweet.get_enc _ hi, List.getElem?_eq_getElem (by omega)]
        simp only [ix_val hi]
      · rw [List.getElem?_eq_none (by omega), List.getElem?_eq_none (by rw [Tweet.length_enc]; omega)]
    have hb : ∀ A, (Tweet.enc A).flatMap KeccakP1600.bytesOfWord = KeccakP1600.bytesOfLanes A := by
      intro A
      rw [Tweet.enc, List.flatMap_map]; rfl
    obtain ⟨B, e, hB⟩ := Tweet.permute_ok A
    refine ⟨_, e, Tweet.length_enc _, ?_⟩
    rw [hb, hb, hB]
    exact (KeccakP1600.C37_ref 24 (by decide) _ (KeccakP1600.length_bytesOfLanes A)).2

/-! ## The sponge functions -/

theorem perm_readable : Perm Tweet.F Readable.permute :=
  ⟨(KeccakP1600.Ref.computes 24 (by decide)).valid, rfl, Readable.permute_eq⟩

theorem perm_more : Perm Tweet.F More.permute :=
  ⟨(KeccakP1600.Ref.computes 24 (by decide)).valid, rfl, More.permute_eq⟩

theorem writes_machine {R : Nat} (hR : 0 < R) (hR' : R ≤ 200) (M : Bytes) (l : Bits) (d : Byte) (hd : Bits.DelimitedBy l d)
    (out : Bytes) (n : Nat) (hn : n ≤ out.length) :
    Writes (some (Bytes.setAt out 0 (Sponge.squeezeAll Tweet.F R n
      (Sponge.finish Tweet.F R (Sponge.absorbAll Tweet.F R (Tweet.F.init, 0) M) d, 0)).2)) out n
      (Spec.sponge 1600 Spec.KeccakP.keccakF (8 * R) (Bits.ofBytes M ++ l) (8 * n)) := by
  have hc := KeccakP1600.Ref.computes 24 (by decide)
  refine ⟨_, ?_, Sponge.length_squeezeAll R n _, Sponge.machine_eq_spec hc.valid _ hc.permute hR hR' M l d hd n⟩
  rw [setAt_zero _ _ (by rw [Sponge.length_squeezeAll]; exact hn), Sponge.length_squeezeAll]

/-- C53: `Keccak` of Keccak-readable-and-compact.c is the sponge function, for every rate from 8 to 1600 that is a multiple
of 8, every suffix, message and output length; it writes only the output. -/
theorem C53_readable (rate capacity : BitVec 32) (hr : 0 < rate.toNat) (hr8 : rate.toNat % 8 = 0)
    (hc : rate.toNat + capacity.toNat = 1600) (input : Bytes) (inLen : BitVec 64) (hin : inLen.toNat ≤ input.length)
    (l : Bits) (d : Byte) (hd : Bits.DelimitedBy l d) (out : Bytes) (outLen : BitVec 64) (hout : outLen.toNat ≤ out.length) :
    Writes (Readable.keccak rate capacity input inLen d out outLen) out outLen.toNat
      (Spec.KECCAK Spec.KeccakP.keccakF capacity.toNat (Bits.ofBytes (input.take inLen.toNat) ++ l) (8 * outLen.toNat)) := by
  have h1 : ¬ (rate + capacity ≠ 1600 ∨ rate % 8 ≠ 0) := by
    simp only [← BitVec.toNat_inj, BitVec.toNat_add, BitVec.toNat_umod, ne_eq]
    simp; omega
  rw [Readable.keccak, if_neg h1, sponge_eq perm_readable (by omega) (by omega) input _ hin d out _ hout, Spec.KECCAK,
    show 1600 - capacity.toNat = 8 * (rate.toNat / 8) by omega]
  exact writes_machine (by omega) (by omega) _ l d hd out _ hout

/-- C53: `Keccak` of Keccak-more-compact.c is the sponge function whose rate is the given one rounded down to a multiple of
8, whatever the capacity. -/
theorem C53_more (rate capacity : BitVec 32) (hr : 8 ≤ rate.toNat) (hr' : rate.toNat < 1608)
    (input : Bytes) (inLen : BitVec 64) (hin : inLen.toNat ≤ input.length)
    (l : Bits) (d : Byte) (hd : Bits.DelimitedBy l d) (out : Bytes) (outLen : BitVec 64) (hout : outLen.toNat ≤ out.length) :
    Writes (More.keccak rate capacity input inLen d out outLen) out outLen.toNat
      (Spec.KECCAK Spec.KeccakP.keccakF (1600 - 8 * (rate.toNat / 8)) (Bits.ofBytes (input.take inLen.toNat) ++ l)
        (8 * outLen.toNat)) := by
  rw [More.keccak, sponge_eq perm_more (by omega) (by omega) input _ hin d out _ hout, Spec.KECCAK,
    show 1600 - (1600 - 8 * (rate.toNat / 8)) = 8 * (rate.toNat / 8) by omega]
  exact writes_machine (by omega) (by omega) _ l d hd out _ hout

/-- C53: `k` of TweetableFIPS202.c is the sponge function, for every rate that is a positive multiple of 8 bytes up to 200
bytes and every suffix of at most 6 bits. -/
theorem C53_tweet (r : Byte) (hr : 0 < r.toNat) (hr' : r.toNat ≤ 200) (hr8 : r.toNat % 8 = 0)
    (input : Bytes) (inLen : BitVec 64) (hin : inLen.toNat ≤ input.length)
    (l : Bits) (hl : l.length ≤ 6) (d : Byte) (hd : Bits.DelimitedBy l d) (out : Bytes) (outLen : BitVec 64)
    (hout : outLen.toNat ≤ out.length) :
    Writes (Tweet.k r input inLen d out outLen) out outLen.toNat
      (Spec.KECCAK Spec.KeccakP.keccakF (1600 - 8 * r.toNat) (Bits.ofBytes (input.take inLen.toNat) ++ l)
        (8 * outLen.toNat)) := by
  have hd' : d < 0x80 := by
    have h1 := hd.2
    have h2 := Bits.toNat_lt l
    have h3 : 2 ^ l.length ≤ 2 ^ 6 := Nat.pow_le_pow_right (by decide) hl
    rw [BitVec.lt_def]
    show d.toNat < 128
    omega
  rw [Tweet.k_ok r hr hr' hr8 input inLen hin d hd' out outLen hout, Spec.KECCAK,
    show 1600 - (1600 - 8 * r.toNat) = 8 * r.toNat by omega]
  exact writes_machine hr hr' _ l d hd out _ hout

/-- C53: the restriction to 6 bits is needed.  If one byte of the last block is free, `k` loses the seventh bit, so that it
gives the same output for two different suffixes. -/
theorem C53_tweet_suffix (r : Byte) (hr : 0 < r.toNat) (m : Bytes) (n : BitVec 64)
    (hn : n.toNat % r.toNat = r.toNat - 1) (p : Byte) (h : Bytes) (d : BitVec 64) :
    Tweet.k r m n (p ||| 0x80) h d = Tweet.k r m n p h d :=
  Tweet.k_msb r hr m n hn p h d

/-! ## The functions of FIPS 202 -/

/-- What the six functions must do with the first `n` bytes of `input`: `shake128 out len`, `shake256 out len`, and the hash
functions with 224, 256, 384 and 512 bits of output. -/
structure FIPS202 (M : Bytes) (shake128 shake256 : Bytes → BitVec 64 → Option Bytes)
    (sha3_224 sha3_256 sha3_384 sha3_512 : Bytes → Option Bytes) : Prop where
  shake128 : ∀ out (len : BitVec 64), len.toNat ≤ out.length →
    Writes (shake128 out len) out len.toNat (Spec.SHAKE Spec.KeccakP.keccakF 128 (Bits.ofBytes M) (8 * len.toNat))
  shake256 : ∀ out (len : BitVec 64), len.toNat ≤ out.length →
    Writes (shake256 out len) out len.toNat (Spec.SHAKE Spec.KeccakP.keccakF 256 (Bits.ofBytes M) (8 * len.toNat))
  sha3_224 : ∀ out : Bytes, 28 ≤ out.length →
    Writes (sha3_224 out) out 28 (Spec.SHA3 Spec.KeccakP.keccakF 224 (Bits.ofBytes M))
  sha3_256 : ∀ out : Bytes, 32 ≤ out.length →
    Writes (sha3_256 out) out 32 (Spec.SHA3 Spec.KeccakP.keccakF 256 (Bits.ofBytes M))
  sha3_384 : ∀ out : Bytes, 48 ≤ out.length →
    Writes (sha3_384 out) out 48 (Spec.SHA3 Spec.KeccakP.keccakF 384 (Bits.ofBytes M))
  sha3_512 : ∀ out : Bytes, 64 ≤ out.length →
    Writes (sha3_512 out) out 64 (Spec.SHA3 Spec.KeccakP.keccakF 512 (Bits.ofBytes M))

theorem shake_suffix : Bits.DelimitedBy [true, true, true, true] 0x1F := by decide

theorem sha3_suffix : Bits.DelimitedBy [false, true] 0x06 := by decide

/-- C53: the functions of Keccak-more-compact.c, for every message and output length. -/
theorem C53_more_functions (input : Bytes) (inLen : BitVec 64) (hin : inLen.toNat ≤ input.length) :
    FIPS202 (input.take inLen.toNat) (More.shake128 input inLen) (More.shake256 input inLen) (More.sha3_224 input inLen)
      (More.sha3_256 input inLen) (More.sha3_384 input inLen) (More.sha3_512 input inLen) where
  shake128 out len h := C53_more 1344 256 (by decide) (by decide) input inLen hin _ _ shake_suffix out len h
  shake256 out len h := C53_more 1088 512 (by decide) (by decide) input inLen hin _ _ shake_suffix out len h
  sha3_224 out h := C53_more 1152 448 (by decide) (by decide) input inLen hin _ _ sha3_suffix out 28 h
  sha3_256 out h := C53_more 1088 512 (by decide) (by decide) input inLen hin _ _ sha3_suffix out 32 h
  sha3_384 out h := C53_more 832 768 (by decide) (by decide) input inLen hin _ _ sha3_suffix out 48 h
  sha3_512 out h := C53_more 576 1024 (by decide) (by decide) input inLen hin _ _ sha3_suffix out 64 h

/-- C53: the functions of TweetableFIPS202.c, for every message and output length. -/
theorem C53_tweet_functions (input : Bytes) (inLen : BitVec 64) (hin : inLen.toNat ≤ input.length) :
    FIPS202 (input.take inLen.toNat) (fun h d => Tweet.shake128 h d input inLen) (fun h d => Tweet.shake256 h d input inLen)
      (fun h => Tweet.sha3_224 h input inLen) (fun h => Tweet.sha3_256 h input inLen)
      (fun h => Tweet.sha3_384 h input inLen) (fun h => Tweet.sha3_512 h input inLen) where
  shake128 out len h :=
    C53_tweet 168 (by decide) (by decide) (by decide) input inLen hin _ (by decide) _ shake_suffix out len h
  shake256 out len h :=
    C53_tweet 136 (by decide) (by decide) (by decide) input inLen hin _ (by decide) _ shake_suffix out len h
  sha3_224 out h := C53_tweet 144 (by decide) (by decide) (by decide) input inLen hin _ (by decide) _ sha3_suffix out 28 h
  sha3_256 out h := C53_tweet 136 (by decide) (by decide) (by decide) input inLen hin _ (by decide) _ sha3_suffix out 32 h
  sha3_384 out h := C53_tweet 104 (by decide) (by decide) (by decide) input inLen hin _ (by decide) _ sha3_suffix out 48 h
  sha3_512 out h := C53_tweet 72 (by decide) (by decide) (by decide) input inLen hin _ (by decide) _ sha3_suffix out 64 h

/-- C53: the functions of Keccak-readable-and-compact.c.  The input length is an `unsigned int`; the output length of the
two XOFs is an `int`, taken here not to be negative. -/
theorem C53_readable_functions (input : Bytes) (inLen : BitVec 32) (hin : inLen.toNat ≤ input.length) :
    (∀ (out : Bytes) (len : BitVec 32), len.toNat < 2 ^ 31 → len.toNat ≤ out.length →
      Writes (Readable.shake128 input inLen out len) out len.toNat
        (Spec.SHAKE Spec.KeccakP.keccakF 128 (Bits.ofBytes (input.take inLen.toNat)) (8 * len.toNat)) ∧
      Writes (Readable.shake256 input inLen out len) out len.toNat
        (Spec.SHAKE Spec.KeccakP.keccakF 256 (Bits.ofBytes (input.take inLen.toNat)) (8 * len.toNat))) ∧
    (∀ out : Bytes,
      (28 ≤ out.length → Writes (Readable.sha3_224 input inLen out) out 28
        (Spec.SHA3 Spec.KeccakP.keccakF 224 (Bits.ofBytes (input.take inLen.toNat)))) ∧
      (32 ≤ out.length → Writes (Readable.sha3_256 input inLen out) out 32
        (Spec.SHA3 Spec.KeccakP.keccakF 256 (Bits.ofBytes (input.take inLen.toNat)))) ∧
      (48 ≤ out.length → Writes (Readable.sha3_384 input inLen out) out 48
        (Spec.SHA3 Spec.KeccakP.keccakF 384 (Bits.ofBytes (input.take inLen.toNat)))) ∧
      (64 ≤ out.length → Writes (Readable.sha3_512 input inLen out) out 64
        (Spec.SHA3 Spec.KeccakP.keccakF 512 (Bits.ofBytes (input.take inLen.toNat))))) := by
  have e : (inLen.setWidth 64).toNat = inLen.toNat := by
    rw [BitVec.toNat_setWidth]; exact Nat.mod_eq_of_lt (by omega)
  refine ⟨fun out len h1 h2 => ?_, fun out => ⟨fun h => ?_, fun h => ?_, fun h => ?_, fun h => ?_⟩⟩
  · have e2 : (len.signExtend 64).toNat = len.toNat := by
      rw [BitVec.toNat_signExtend, show len.msb = false by rw [BitVec.msb_eq_decide]; simp; omega]
      simp; omega
    have h3 := C53_readable 1344 256 (by decide) (by decide) (by decide) input (inLen.setWidth 64) (by omega) _ _ shake_suffix
      out (len.signExtend 64) (by omega)
    have h4 := C53_readable 1088 512 (by decide) (by decide) (by decide) input (inLen.setWidth 64) (by omega) _ _ shake_suffix
      out (len.signExtend 64) (by omega)
    rw [e, e2] at h3 h4
    exact ⟨h3, h4⟩
  · have := C53_readable 1152 448 (by decide) (by decide) (by decide) input (inLen.setWidth 64) (by omega) _ _ sha3_suffix out 28 h
    rwa [e] at this
  · have := C53_readable 1088 512 (by decide) (by decide) (by decide) input (inLen.setWidth 64) (by omega) _ _ sha3_suffix out 32 h
    rwa [e] at this
  · have := C53_readable 832 768 (by decide) (by decide) (by decide) input (inLen.setWidth 64) (by omega) _ _ sha3_suffix out 48 h
    rwa [e] at this
  · have := C53_readable 576 1024 (by decide) (by decide) (by decide) input (inLen.setWidth 64) (by omega) _ _ sha3_suffix out 64 h
    rwa [e] at this

/-! ## Other parameters -/

/-- C53: exactly when `Keccak` of Keccak-readable-and-compact.c is defined: it returns without doing anything if the check of
the parameters fails, and if the check passes the rate must still be from 8 to 1600. -/
theorem C53_readable_defined (rate capacity : BitVec 32) (input : Bytes) (inLen : BitVec 64) (l : Bits) (d : Byte)
    (hd : Bits.DelimitedBy l d) (out : Bytes) (outLen : BitVec 64) :
    ((rate + capacity ≠ 1600 ∨ rate % 8 ≠ 0) → Readable.keccak rate capacity input inLen d out outLen = some out) ∧
    (¬ (rate + capacity ≠ 1600 ∨ rate % 8 ≠ 0) →
      ((∃ o, Readable.keccak rate capacity input inLen d out outLen = some o) ↔
        0 < rate.toNat ∧ rate.toNat ≤ 1600 ∧ inLen.toNat ≤ input.length ∧ outLen.toNat ≤ out.length)) := by
  refine ⟨fun h => by rw [Readable.keccak, if_pos h], fun h => ⟨?_, ?_⟩⟩
  · rintro ⟨o, e⟩
    rw [Readable.keccak, if_neg h] at e
    have := sponge_some perm_readable (by omega) e
    have h8 : rate % 8 = 0 := by
      by_contra h'; exact h (.inr h')
    have h8' := congrArg BitVec.toNat h8
    simp at h8'
    omega
  · rintro ⟨h1, h2, h3, h4⟩
    have h8 : rate % 8 = 0 := by
      by_contra h'; exact h (.inr h')
    have h8' := congrArg BitVec.toNat h8
    simp at h8'
    rw [Readable.keccak, if_neg h, sponge_eq perm_readable (by omega) (by omega) input _ h3 d out _ h4]
    exact ⟨_, rfl⟩

/-- C53: the check lets through a rate of zero (the loop over the input does not end, or a byte before the state is
written) and, because the sum is computed modulo 2^32, rates far above 1600 (a byte after the state is written). -/
theorem C53_readable_bad_rate (input : Bytes) (inLen : BitVec 64) (l : Bits) (d : Byte) (hd : Bits.DelimitedBy l d) (out : Bytes)
    (outLen : BitVec 64) :
    Readable.keccak 0 1600 input inLen d out outLen = none ∧
    Readable.keccak 0xFFFFFFF8 1608 input inLen d out outLen = none := by
  constructor
  · have := (C53_readable_defined 0 1600 input inLen l d hd out outLen).2 (by decide)
    cases e : Readable.keccak 0 1600 input inLen d out outLen with
    | none => rfl
    | some o => exact absurd (this.mp ⟨o, e⟩).1 (by decide)
  · have := (C53_readable_defined 0xFFFFFFF8 1608 input inLen l d hd out outLen).2 (by decide)
    cases e : Readable.keccak 0xFFFFFFF8 1608 input inLen d out outLen with
    | none => rfl
    | some o => exact absurd (this.mp ⟨o, e⟩).2.1 (by decide)

/-- C53: a negative output length of `FIPS202_SHAKE128` or `FIPS202_SHAKE256` becomes a length of at least 2^64 - 2^31 bytes:
with any smaller buffer the functions write past its end. -/
theorem C53_readable_negative (input : Bytes) (inLen : BitVec 32) (out : Bytes) (len : BitVec 32) (h : len.toInt < 0)
    (ho : out.length < 2 ^ 64 - 2 ^ 31) :
    Readable.shake128 input inLen out len = none ∧ Readable.shake256 input inLen out len = none := by
  have hl : 2 ^ 64 - 2 ^ 31 ≤ (len.signExtend 64).toNat := by
    have hm : len.msb = true := by rw [BitVec.msb_eq_toInt]; simpa using h
    rw [BitVec.toNat_signExtend, hm]
    rw [BitVec.msb_eq_decide] at hm
    simp at hm ⊢
    omega
  constructor
  · have := (C53_readable_defined 1344 256 input (inLen.setWidth 64) _ 0x1F shake_suffix out (len.signExtend 64)).2 (by decide)
    cases e : Readable.shake128 input inLen out len with
    | none => rfl
    | some o => have := (this.mp ⟨o, e⟩).2.2.2; omega
  · have := (C53_readable_defined 1088 512 input (inLen.setWidth 64) _ 0x1F shake_suffix out (len.signExtend 64)).2 (by decide)
    cases e : Readable.shake256 input inLen out len with
    | none => rfl
    | some o => have := (this.mp ⟨o, e⟩).2.2.2; omega

/-- C53: exactly when `Keccak` of Keccak-more-compact.c is defined: there is no check at all. -/
theorem C53_more_defined (rate capacity : BitVec 32) (input : Bytes) (inLen : BitVec 64) (d : Byte) (out : Bytes)
    (outLen : BitVec 64) :
    (∃ o, More.keccak rate capacity input inLen d out outLen = some o) ↔
      8 ≤ rate.toNat ∧ rate.toNat < 1608 ∧ inLen.toNat ≤ input.length ∧ outLen.toNat ≤ out.length := by
  constructor
  · rintro ⟨o, e⟩
    rw [More.keccak] at e
    have := sponge_some perm_more (by omega) e
    omega
  · rintro ⟨h1, h2, h3, h4⟩
    rw [More.keccak, sponge_eq perm_more (by omega) (by omega) input _ h3 d out _ h4]
    exact ⟨_, rfl⟩

/-- C53: the stub that gives TweetableFIPS202.c the interface of the other two agrees with Keccak-readable-and-compact.c
whenever it accepts the parameters. -/
theorem C53_stub (rate capacity : BitVec 32) (input : Bytes) (inLen : BitVec 64) (d : Byte) (out : Bytes) (outLen : BitVec 64)
    (hin : inLen.toNat ≤ input.length) (hout : outLen.toNat ≤ out.length) (o : Bytes)
    (h : Stub.keccak rate capacity input inLen d out outLen = some o) :
    Readable.keccak rate capacity input inLen d out outLen = some o := by
  have uniq : ∀ {x y : Option Bytes} {n : Nat} {S : Bits}, Writes x out n S → Writes y out n S → x = some o → y = some o := by
    rintro x y n S ⟨a, e1, h1, h2⟩ ⟨b, e2, h3, h4⟩ e
    have : a = b := Bits.ofBytes_injective (h2.trans h4.symm)
    rw [e2, ← this, ← e1, e]
  have T := C53_tweet_functions input inLen hin
  rw [Stub.keccak] at h
  split at h
  · rename_i hc
    obtain ⟨rfl, rfl, rfl⟩ := hc
    exact uniq (T.shake128 out outLen hout) (C53_readable _ _ (by decide) (by decide) (by decide) input inLen hin _ _ shake_suffix
      out outLen hout) h
  split at h
  · rename_i hc
    obtain ⟨rfl, rfl, rfl⟩ := hc
    exact uniq (T.shake256 out outLen hout) (C53_readable _ _ (by decide) (by decide) (by decide) input inLen hin _ _ shake_suffix
      out outLen hout) h
  split at h
  · rename_i hc
    obtain ⟨rfl, rfl, rfl, rfl⟩ := hc
    exact uniq (T.sha3_224 out hout) (C53_readable _ _ (by decide) (by decide) (by decide) input inLen hin _ _ sha3_suffix
      out _ hout) h
  split at h
  · rename_i hc
    obtain ⟨rfl, rfl, rfl, rfl⟩ := hc
    exact uniq (T.sha3_256 out hout) (C53_readable _ _ (by decide) (by decide) (by decide) input inLen hin _ _ sha3_suffix
      out _ hout) h
  split at h
  · rename_i hc
    obtain ⟨rfl, rfl, rfl, rfl⟩ := hc
    exact uniq (T.sha3_384 out hout) (C53_readable _ _ (by decide) (by decide) (by decide) input inLen hin _ _ sha3_suffix
      out _ hout) h
  split at h
  · rename_i hc
    obtain ⟨rfl, rfl, rfl, rfl⟩ := hc
    exact uniq (T.sha3_512 out hout) (C53_readable _ _ (by decide) (by decide) (by decide) input inLen hin _ _ sha3_suffix
      out _ hout) h
  · cases h

/-- C53: the stub accepts the parameters of the six functions and no other ones (an assertion fails). -/
theorem C53_stub_accepts (rate capacity : BitVec 32) (input : Bytes) (inLen : BitVec 64) (d : Byte) (out : Bytes)
    (outLen : BitVec 64) (hin : inLen.toNat ≤ input.length) (hout : outLen.toNat ≤ out.length) :
    (∃ o, Stub.keccak rate capacity input inLen d out outLen = some o) ↔
      ((rate, capacity, d) ∈ [(1344, 256, 0x1F), (1088, 512, 0x1F)] ∨
        (rate, capacity, d, outLen) ∈ [(1152, 448, 0x06, 28), (1088, 512, 0x06, 32), (832, 768, 0x06, 48), (576, 1024, 0x06, 64)]) := by
  have T := C53_tweet_functions input inLen hin
  have some_of : ∀ {x : Option Bytes} {n : Nat} {S : Bits}, Writes x out n S → ∃ o, x = some o := by
    rintro x n S ⟨a, e, _⟩
    exact ⟨_, e⟩
  simp only [List.mem_cons, Prod.mk.injEq, List.not_mem_nil, or_false]
  constructor
  · rintro ⟨o, h⟩
    rw [Stub.keccak] at h
    split at h
    · left; left; assumption
    split at h
    · left; right; assumption
    split at h
    · right; left; assumption
    split at h
    · right; right; left; assumption
    split at h
    · right; right; right; left; assumption
    split at h
    · right; right; right; right; assumption
    · cases h
  · rintro ((⟨rfl, rfl, rfl⟩ | ⟨rfl, rfl, rfl⟩) | ⟨rfl, rfl, rfl, rfl⟩ | ⟨rfl, rfl, rfl, rfl⟩ | ⟨rfl, rfl, rfl, rfl⟩ | ⟨rfl, rfl, rfl, rfl⟩)
    · exact some_of (T.shake128 out outLen hout)
    · exact some_of (T.shake256 out outLen hout)
    · exact some_of (T.sha3_224 out hout)
    · exact some_of (T.sha3_256 out hout)
    · exact some_of (T.sha3_384 out hout)
    · exact some_of (T.sha3_512 out hout)

/-! ## Concrete cases -/

/-- The hypotheses of `C53_readable` are met by SHAKE128 of three bytes with five bytes of output in a buffer of seven. -/
example : Writes (Readable.keccak 1344 256 [1, 2, 3] 3 0x1F [0, 0, 0, 0, 0, 9, 9] 5) [0, 0, 0, 0, 0, 9, 9] 5
    (Spec.KECCAK Spec.KeccakP.keccakF 256 (Bits.ofBytes [1, 2, 3] ++ [true, true, true, true]) 40) :=
  C53_readable 1344 256 (by decide) (by decide) (by decide) [1, 2, 3] 3 (by decide) _ _ shake_suffix _ 5 (by decide)

/-- The two suffixes of `C53_tweet_suffix` are different and both are the delimited form of some bits. -/
example : Bits.DelimitedBy [] 0x01 ∧ Bits.DelimitedBy [true, false, false, false, false, false, false] (0x01 ||| 0x80) ∧
    Tweet.k 8 [1, 2, 3, 4, 5, 6, 7] 7 (0x01 ||| 0x80) (Bytes.zeros 32) 32 =
      Tweet.k 8 [1, 2, 3, 4, 5, 6, 7] 7 0x01 (Bytes.zeros 32) 32 :=
  ⟨by decide, by decide, C53_tweet_suffix 8 (by decide) _ 7 (by decide) 0x01 _ 32⟩

/-- A negative length. -/
example : Readable.shake128 [1] 1 (Bytes.zeros 64) (-1) = none :=
  (C53_readable_negative [1] 1 (Bytes.zeros 64) (-1) (by decide) (by decide)).1

end Compact202
