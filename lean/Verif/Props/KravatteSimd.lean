import Verif.Proofs.Times4Kravatte
import Verif.Props.Farfalle

/-!
# C46: the AVX2 functions for Kravatte

`KeccakP1600times4_KravatteCompress` and `KeccakP1600times4_KravatteExpand` compute on four blocks at a time what the serial code computes
block by block, so that Kravatte with the AVX2 path is Farfalle with the parameters of Kravatte, like Kravatte without it.  On i386 this is
false: the macro that replaces `_mm256_extract_epi64` has `||` where it needs `|`.

The specification is `Spec/Farfalle.lean`; what the serial code computes is given by `Farfalle.eat` and `Farfalle.gen`, the contracts under
which C31 proves the code of `Kravatte.c` correct for any SIMD path.
-/

namespace KravatteSimd

open Farfalle (Path PathOk Valid Matches)
open KeccakP1600.Opt64 (Unrolling)
open Times4 (Arch Junk)
open Simd (wd)

/-- Kravatte with the serial code only. -/
def serial : Farfalle.Cfg := Kravatte.cfg (KeccakP1600.Ref.permuteNrounds 6) (Bytes.zeros 200) []

/-- C46, compression, for every message of at least four blocks: the new mask, the new accumulator and the number of bytes are those of
processing the blocks one after the other; nothing outside the arrays is accessed. -/
theorem C46_compress (a : Arch) (ha : a.i386 = false) (unr : Unrolling) (J : Junk) (x k input : Bytes) (len : Nat)
    (hk : k.length = 200) (hx : x.length = 200) (h8 : 800 ≤ len) (hl : len ≤ input.length) (h64 : len < 2 ^ 64) :
    Times4.kravatteCompress a unr J len x k input len = some ((Farfalle.eat serial (len / 800 * 4) (k, x) input).1,
      (Farfalle.eat serial (len / 800 * 4) (k, x) input).2, len / 800 * 800) :=
  Times4.kravatteCompress_ok rfl rfl rfl ha unr J len x k input len hk hx h8 hl h64 (Nat.le_refl _)

/-- C46, expansion, for every output of at least four blocks: the blocks are those of the serial code, and the bytes after them are not
modified. -/
theorem C46_expand (a : Arch) (ha : a.i386 = false) (unr : Unrolling) (J : Junk) (y kRoll output : Bytes) (len : Nat)
    (hk : kRoll.length = 200) (hy : y.length = 200) (h8 : 800 ≤ len) (hl : len ≤ output.length) (h64 : len < 2 ^ 64) :
    Times4.kravatteExpand a unr J len y kRoll output len = some (Nat.repeat (Farfalle.re serial) (len / 800 * 4) y,
      Farfalle.gen serial kRoll (len / 800 * 4) y ++ output.drop (len / 800 * 800), len / 800 * 800) :=
  Times4.kravatteExpand_ok rfl rfl ha unr J len y kRoll output len hk hy h8 hl h64 (Nat.le_refl _)

/-- What is called in `ParallelCompressLoopFast(4)` (Kravatte.c:104-109).  Lengths that do not fit in a `size_t` cannot occur; for these the
function is the contract. -/
def compress (a : Arch) (unr : Unrolling) (J : Junk) (k x m : Bytes) : Bytes × Bytes × Nat :=
  if m.length < 2 ^ 64 then (Times4.kravatteCompress a unr J m.length x k m m.length).getD ([], [], 0)
  else ((Farfalle.eat serial (m.length / 800 * 4) (k, x) m).1, (Farfalle.eat serial (m.length / 800 * 4) (k, x) m).2, m.length / 800 * 800)

/-- What is called in `ParallelExpandLoopFast(4)` (Kravatte.c:111-116): the new `yAccu` and the bytes that count as written. -/
def expand (a : Arch) (unr : Unrolling) (J : Junk) (y kRoll : Bytes) (len : Nat) : Bytes × Bytes :=
  if len < 2 ^ 64 then
    ((Times4.kravatteExpand a unr J len y kRoll (Bytes.zeros len) len).map fun r => (r.1, r.2.1.take r.2.2)).getD ([], [])
  else (Nat.repeat (Farfalle.re serial) (len / 800 * 4) y, Farfalle.gen serial kRoll (len / 800 * 4) y)

/-- The AVX2 path of `Kravatte.c`. -/
def path (a : Arch) (unr : Unrolling) (J : Junk) : Path := .fast 4 (compress a unr J) (expand a unr J)

theorem compress_eq (a : Arch) (ha : a.i386 = false) (unr : Unrolling) (J : Junk) (k x m : Bytes) (hk : k.length = 200) (hx : x.length = 200)
    (h8 : 800 ≤ m.length) : compress a unr J k x m = ((Farfalle.eat serial (m.length / 800 * 4) (k, x) m).1,
      (Farfalle.eat serial (m.length / 800 * 4) (k, x) m).2, m.length / 800 * 800) := by
  unfold compress
  split
  · rename_i h
    rw [C46_compress a ha unr J x k m m.length hk hx h8 (Nat.le_refl _) h]; rfl
  · rfl

theorem expand_eq (a : Arch) (ha : a.i386 = false) (unr : Unrolling) (J : Junk) (y kRoll : Bytes) (len : Nat) (hk : kRoll.length = 200)
    (hy : y.length = 200) (h8 : 800 ≤ len) : expand a unr J y kRoll len =
      (Nat.repeat (Farfalle.re serial) (len / 800 * 4) y, Farfalle.gen serial kRoll (len / 800 * 4) y) := by
  unfold expand
  split
  · rename_i h
    rw [C46_expand a ha unr J y kRoll _ len hk hy h8 (by rw [Bytes.length_zeros]) h]
    have hg := Times4.length_gen6 (C := serial) rfl hk (len / 800 * 4) y
    show (_, _) = _
    rw [List.take_left' (by rw [hg]; show 200 * (len / 800 * 4) = len / 800 * 800; omega)]
  · rfl

/-! ### Any implementation of the permutation in the serial code -/

theorem permute_eq {permute : Bytes → Bytes} (hp : ∀ s : Bytes, s.length = 200 → (permute s).length = 200 ∧
    Bits.ofBytes (permute s) = Spec.KeccakP.keccakP 6 (Bits.ofBytes s)) (s : Bytes) (hs : s.length = 200) :
    permute s = KeccakP1600.Ref.permuteNrounds 6 s := by
  have h := KeccakP1600.C37_ref 6 (by decide) s hs
  exact Bits.ofBytes_injective (h.2.symm ▸ (hp s hs).2)

section

variable {permute : Bytes → Bytes} (hp : ∀ s : Bytes, s.length = 200 → (permute s).length = 200 ∧
    Bits.ofBytes (permute s) = Spec.KeccakP.keccakP 6 (Bits.ofBytes s)) {junk : Bytes} {paths : List Path}

include hp

theorem eat_eq : ∀ (n : Nat) (k x d : Bytes), k.length = 200 → 200 * n ≤ d.length →
    Farfalle.eat (Kravatte.cfg permute junk paths) n (k, x) d = Farfalle.eat serial n (k, x) d
  | 0, _, _, _, _, _ => rfl
  | n + 1, k, x, d, hk, hd => by
    have e : permute (Bytes.xor k (d.take 200)) = KeccakP1600.Ref.permuteNrounds 6 (Bytes.xor k (d.take 200)) :=
      permute_eq hp _ (by rw [Bytes.length_xor, hk, List.length_take]; omega)
    show Farfalle.eat (Kravatte.cfg permute junk paths) n (Kravatte.rc1 k, Bytes.xor x (permute (Bytes.xor k (d.take 200)))) (d.drop 200) = _
    rw [e, eat_eq n _ _ _ (Kravatte.length_rc1 hk) (by rw [List.length_drop]; omega)]
    rfl

theorem gen_eq (kRoll : Bytes) : ∀ (n : Nat) (y : Bytes), y.length = 200 →
    Farfalle.gen (Kravatte.cfg permute junk paths) kRoll n y = Farfalle.gen serial kRoll n y
  | 0, _, _ => rfl
  | n + 1, y, hy => by
    show Bytes.xor kRoll (permute y) ++ Farfalle.gen (Kravatte.cfg permute junk paths) kRoll n (Kravatte.re1 y) = _
    rw [permute_eq hp _ hy, gen_eq kRoll n _ (Kravatte.length_re1 hy)]
    rfl

/-- C46: the AVX2 path meets the contract of a parallel path. -/
theorem C46_path (a : Arch) (ha : a.i386 = false) (unr : Unrolling) (J : Junk) :
    PathOk (Kravatte.cfg permute junk paths) (path a unr J) := by
  refine ⟨by omega, fun k x m hk hx hm => ?_, fun y kRoll len hy hk hl => ?_⟩
  · change k.length = 200 at hk
    change x.length = 200 at hx
    change 800 ≤ m.length at hm
    show compress a unr J k x m = ((Farfalle.eat _ (m.length / 800 * 4) (k, x) m).1, (Farfalle.eat _ (m.length / 800 * 4) (k, x) m).2,
      m.length / 800 * 4 * 200)
    rw [compress_eq a ha unr J k x m hk hx hm, eat_eq hp _ _ _ _ hk (by omega)]
    refine Prod.ext rfl (Prod.ext rfl ?_)
    show m.length / 800 * 800 = m.length / 800 * 4 * 200
    omega
  · change y.length = 200 at hy
    change kRoll.length = 200 at hk
    change 800 ≤ len at hl
    show expand a unr J y kRoll len = (_, Farfalle.gen _ kRoll (len / 800 * 4) y)
    rw [expand_eq a ha unr J y kRoll len hk hy hl, gen_eq hp _ _ _ hy]
    rfl

end

/-- C46: Kravatte with the AVX2 path, for any implementation of Keccak-p[1600, 6] in the serial code, is Farfalle with the parameters of
Kravatte: the theorems C31 to C33 apply to it. -/
theorem C46_kravatte (permute : Bytes → Bytes) (hp : ∀ s : Bytes, s.length = 200 → (permute s).length = 200 ∧
      Bits.ofBytes (permute s) = Spec.KeccakP.keccakP 6 (Bits.ofBytes s)) (junk : Bytes) (hj : junk.length = 200)
    (a : Arch) (ha : a.i386 = false) (unr : Unrolling) (J : Junk) :
    Valid (Kravatte.cfg permute junk [path a unr J]) ∧ Matches (Kravatte.cfg permute junk [path a unr J]) Spec.Kravatte.par :=
  Farfalle.kravatte_ok permute hp junk hj _ (by
    intro p h
    obtain rfl : p = path a unr J := by simpa using h
    exact C46_path hp a ha unr J)

/-- C46 spelled out for one string in one call, with the AVX2 path and the optimised 64-bit implementation of the permutation: the output is
Farfalle of the string. -/
theorem C46_full (k : KeccakP1600.Opt64.Cfg) (E0 : KeccakP1600.Opt64.V) (C0 : KeccakP1600.Opt64.C5) (junk : Bytes) (hj : junk.length = 200)
    (a : Arch) (ha : a.i386 = false) (unr : Unrolling) (J : Junk) (kv : Farfalle.Inst)
    (hs : Farfalle.Sized (Kravatte.cfg (Farfalle.keccakOpt6 k E0 C0) junk [path a unr J]) kv) (key : Bytes) (keyLen : Nat)
    (hk : (keyLen + 7) / 8 ≤ key.length) (hkl : keyLen < 1600) (input : Bytes) (m : Nat) (hm : (m + 7) / 8 ≤ input.length)
    (hc : Farfalle.Clean input m) (n : Nat) (hn : n + 7 < 2 ^ 64) (init last short : Bool) :
    ∃ kv₀ kv' o, Farfalle.maskDerivation (Kravatte.cfg (Farfalle.keccakOpt6 k E0 C0) junk [path a unr J]) kv key keyLen = some (0, kv₀) ∧
      Farfalle.full (Kravatte.cfg (Farfalle.keccakOpt6 k E0 C0) junk [path a unr J]) kv₀ input m n ⟨init, last, short⟩ = some (0, kv', o) ∧
      Farfalle.Holds o (Spec.Farfalle.farfalle (if short then Spec.Kravatte.par.short else Spec.Kravatte.par) ((Bits.ofBytes key).take keyLen)
        [(Bits.ofBytes input).take m] 0 n) := by
  obtain ⟨h1, h2⟩ := C46_kravatte _ (Farfalle.C31_kravatte _ (.inr ⟨k, E0, C0, rfl⟩)) junk hj a ha unr J
  exact Farfalle.C31_full h1 h2 kv hs key keyLen hk hkl input m hm hc n hn init last short

/-! ### i386 -/

/-- A mask whose last word is 2. -/
def mask2 : Bytes := Bytes.zeros 192 ++ (2 : Byte) :: Bytes.zeros 7

/-- On i386 the claim is false (F18): after `KravatteCompress` the last word of the mask is 0 or 1, whatever the mask, whereas rolling `mask2`
four times gives 2. -/
theorem C46_i386_false (a : Arch) (ha : a.i386 = true) (unr : Unrolling) (J : Junk) :
    (∀ x k input : Bytes, ∀ len : Nat, k.length = 200 → x.length = 200 → 800 ≤ len → len ≤ input.length → len < 2 ^ 32 →
      ∃ k' x', Times4.kravatteCompress a unr J len x k input len = some (k', x', len / 800 * 800) ∧ (wd k' 24 = 0 ∨ wd k' 24 = 1)) ∧
    ∀ x input : Bytes, x.length = 200 → input.length = 800 → Times4.kravatteCompress a unr J 800 x mask2 input 800 ≠
      some ((Farfalle.eat serial 4 (mask2, x) input).1, (Farfalle.eat serial 4 (mask2, x) input).2, 800) := by
  have h1 : ∀ x k input : Bytes, ∀ len : Nat, k.length = 200 → x.length = 200 → 800 ≤ len → len ≤ input.length → len < 2 ^ 32 →
      ∃ k' x', Times4.kravatteCompress a unr J len x k input len = some (k', x', len / 800 * 800) ∧ (wd k' 24 = 0 ∨ wd k' 24 = 1) := by
    intro x k input len hk hx h8 hl h32
    obtain ⟨k', x', e, -, -, h⟩ := Times4.kravatteCompress_i386 ha unr J len x k input len hk hx h8 hl h32 (Nat.le_refl _)
    exact ⟨k', x', e, h⟩
  refine ⟨h1, fun x input hx hi e => ?_⟩
  have hm : mask2.length = 200 := by decide +kernel
  obtain ⟨k', x', e', h⟩ := h1 x mask2 input 800 hm hx (by omega) (by omega) (by omega)
  rw [e] at e'
  have hk : (Farfalle.eat serial 4 (mask2, x) input).1 = k' := by
    generalize Farfalle.eat serial 4 (mask2, x) input = r at e'
    simp only [Option.some.injEq, Prod.mk.injEq] at e'
    exact e'.1
  rw [Farfalle.eat_fst] at hk
  have h8 : wd k' 24 = Kravatte.cseq mask2 (4 + 4) := by
    rw [← hk]; exact Kravatte.kAt_hi hm 4 4 (by omega)
  have h3 : Kravatte.cseq mask2 (0 + 3) = 0 := (Kravatte.kAt_hi hm 0 3 (by omega)).symm.trans (by decide +kernel)
  have h4 : Kravatte.cseq mask2 (0 + 4) = 2 := (Kravatte.kAt_hi hm 0 4 (by omega)).symm.trans (by decide +kernel)
  have hs := Kravatte.cseq_step hm 3
  rw [Nat.zero_add] at h3 h4
  rw [show 3 + 1 = 4 from rfl, h3, h4] at hs
  rw [h8, show 4 + 4 = 3 + 5 from rfl, hs] at h
  revert h; decide +kernel

/-! ### A case that meets the hypotheses -/

/-- Five blocks and a bit, which the AVX2 code processes as one group of four. -/
example (unr : Unrolling) (J : Junk) : ∃ k' x', Times4.kravatteCompress ⟨false, false⟩ unr J 1007 (Bytes.zeros 200) mask2 (Bytes.zeros 1007) 1007 =
    some (k', x', 800) :=
  ⟨_, _, C46_compress ⟨false, false⟩ rfl unr J (Bytes.zeros 200) mask2 (Bytes.zeros 1007) 1007 (by decide +kernel) (by decide +kernel) (by omega)
    (by rw [Bytes.length_zeros]) (by omega)⟩

end KravatteSimd
