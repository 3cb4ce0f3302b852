import Verif.Props.KeccakP
import Verif.Props.KeccakHash

/-!
# C10 and C11 for the real permutation

The generic theorems of `Props/KeccakHash` with Keccak-f[1600] (`SHA3_*`, `SHAKE*`) and Keccak-p[1600, 12]
(`TurboSHAKE`) of FIPS 202.  They hold for every SnP implementation that `Computes` the permutation; the
reference implementation is one (`Ref.computes`), the other ones follow in `Props/KeccakPOpt`.
-/

namespace KeccakP1600

/-- C10: the one-shot SHA-3 functions are those of FIPS 202 section 6, including the permutation. -/
theorem C10 {P : SnP} (h : Computes P 24) (M : Bytes) (n : Nat) :
    (∃ o, KeccakHash.SHA3_224 P M = some (0, o) ∧
      Bits.ofBytes o = Spec.SHA3 Spec.KeccakP.keccakF 224 (Bits.ofBytes M)) ∧
    (∃ o, KeccakHash.SHA3_256 P M = some (0, o) ∧
      Bits.ofBytes o = Spec.SHA3 Spec.KeccakP.keccakF 256 (Bits.ofBytes M)) ∧
    (∃ o, KeccakHash.SHA3_384 P M = some (0, o) ∧
      Bits.ofBytes o = Spec.SHA3 Spec.KeccakP.keccakF 384 (Bits.ofBytes M)) ∧
    (∃ o, KeccakHash.SHA3_512 P M = some (0, o) ∧
      Bits.ofBytes o = Spec.SHA3 Spec.KeccakP.keccakF 512 (Bits.ofBytes M)) ∧
    (∃ o, KeccakHash.SHAKE128 P M n = some (0, o) ∧
      Bits.ofBytes o = Spec.SHAKE Spec.KeccakP.keccakF 128 (Bits.ofBytes M) (8 * n)) ∧
    (∃ o, KeccakHash.SHAKE256 P M n = some (0, o) ∧
      Bits.ofBytes o = Spec.SHAKE Spec.KeccakP.keccakF 256 (Bits.ofBytes M) (8 * n)) :=
  KeccakHash.C10_generic h.valid h.width _ h.permute M n

/-- C10: the incremental interface, with messages of any number of bits. -/
theorem C10_incremental {P : SnP} (h : Computes P 24) (mem : HashInst)
    (us : List (Bytes × Nat)) (hus : ∀ u ∈ us, u.2 % 8 = 0 ∧ u.2 ≤ 8 * u.1.length)
    (last : Bytes × Nat) (hlast : last.2 ≤ 8 * last.1.length) (n : Nat) (hn : n % 8 = 0) :
    (∀ v, v ∈ [(224, KeccakHash.initSHA3_224 P mem), (256, KeccakHash.initSHA3_256 P mem),
        (384, KeccakHash.initSHA3_384 P mem), (512, KeccakHash.initSHA3_512 P mem)] →
      ∃ i0 i1 i2 i3 o, v.2 = (0, i0) ∧
        KeccakHash.updates P i0 us = some (List.replicate us.length 0, i1) ∧
        KeccakHash.hashUpdate P i1 last.1 last.2 = some (0, i2) ∧
        KeccakHash.hashFinal P i2 = some (0, i3, o) ∧
        Bits.ofBytes o = Spec.SHA3 Spec.KeccakP.keccakF v.1
          (us.flatMap KeccakHash.bitsOf ++ KeccakHash.bitsOf last)) ∧
    (∀ v, v ∈ [(128, KeccakHash.initSHAKE128 P mem), (256, KeccakHash.initSHAKE256 P mem)] →
      ∃ i0 i1 i2 i3 i4 o, v.2 = (0, i0) ∧
        KeccakHash.updates P i0 us = some (List.replicate us.length 0, i1) ∧
        KeccakHash.hashUpdate P i1 last.1 last.2 = some (0, i2) ∧
        KeccakHash.hashFinal P i2 = some (0, i3, []) ∧
        KeccakHash.hashSqueeze P i3 n = some (0, i4, o) ∧
        Bits.ofBytes o = Spec.SHAKE Spec.KeccakP.keccakF v.1
          (us.flatMap KeccakHash.bitsOf ++ KeccakHash.bitsOf last) n) :=
  KeccakHash.C10_incremental_generic h.valid h.width _ h.permute mem us hus last hlast n hn

/-- C11: `TurboSHAKE` is the sponge over KECCAK-p[1600, 12] with the given capacity and domain separation
byte, and refuses every other capacity and the zero byte. -/
theorem C11 {P : SnP} (h : Computes P 12) (stack : SpongeInst) (capacity : BitVec 32) (M : Bytes)
    (domain : Byte) (n : Nat) :
    (∀ l, Bits.DelimitedBy l domain → capacity.toNat ≤ 512 → capacity.toNat % 8 = 0 →
      ∃ o, TurboSHAKE.turboSHAKE P stack capacity M domain n = some (0, o) ∧
        Bits.ofBytes o =
          Spec.TurboSHAKE (Spec.KeccakP.keccakP 12) capacity.toNat (Bits.ofBytes M) l (8 * n)) ∧
    (¬ (capacity.toNat ≤ 512 ∧ capacity.toNat % 8 = 0 ∧ domain ≠ 0) →
      TurboSHAKE.turboSHAKE P stack capacity M domain n = some (1, [])) :=
  TurboSHAKE.C11_generic h.valid h.width _ h.permute stack capacity M domain n

-- the hypotheses are met by the reference implementation, here for SHA3-256 of "abc"
example : ∃ o, KeccakHash.SHA3_256 (Ref.snp 24) [0x61, 0x62, 0x63] = some (0, o) ∧
    Bits.ofBytes o = Spec.SHA3 Spec.KeccakP.keccakF 256 (Bits.ofBytes [0x61, 0x62, 0x63]) :=
  (C10 (Ref.computes 24 (by decide)) _ 0).2.1

-- and for TurboSHAKE128 with domain byte 0x1F and 32 bytes of output
example (stack : SpongeInst) : ∃ o, TurboSHAKE.turboSHAKE (Ref.snp 12) stack 256 [1, 2, 3] 0x1F 32 = some (0, o) ∧
    Bits.ofBytes o = Spec.TurboSHAKE (Spec.KeccakP.keccakP 12) 256 (Bits.ofBytes [1, 2, 3])
      [true, true, true, true] (8 * 32) :=
  (C11 (Ref.computes 12 (by decide)) stack 256 _ _ _).1 _ (by decide) (by decide) (by decide)

end KeccakP1600
