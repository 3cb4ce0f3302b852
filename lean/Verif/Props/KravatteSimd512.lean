import Verif.Proofs.Times8Kravatte
import Verif.Props.KravatteSimd

/-!
# C52: the AVX-512 functions for Kravatte

`KeccakP1600times8_KravatteCompress` and `KeccakP1600times8_KravatteExpand` compute on eight blocks at a time what the serial code computes
block by block, so that Kravatte with the AVX-512 path is Farfalle with the parameters of Kravatte, like Kravatte without it.  On i386 this is
false: the macro that replaces `_mm256_extract_epi64` has `||` where it needs `|`.

The specification is `Spec/Farfalle.lean`; what the serial code computes is given by `Farfalle.eat` and `Farfalle.gen`, the contracts under
which C31 proves the code of `Kravatte.c` correct for any SIMD path.
-/

namespace KravatteSimd512

open Farfalle (Path PathOk Valid Matches)
open KravatteSimd (serial eat_eq gen_eq mask2)
open Times4 (F6 length_F6)
open Simd (wd)

/-- C52, compression, for every message of at least eight blocks: the new mask, the new accumulator and the number of bytes are those of
processing the blocks one after the other; nothing outside the arrays is accessed. -/
theorem C52_compress (x k input : Bytes) (len : Nat) (hk : k.length = 200) (hx : x.length = 200) (h8 : 1600 ≤ len) (hl : len ≤ input.length)
    (h64 : len < 2 ^ 64) :
    Times8.kravatteCompress false len x k input len = some ((Farfalle.eat serial (len / 1600 * 8) (k, x) input).1,
      (Farfalle.eat serial (len / 1600 * 8) (k, x) input).2, len / 1600 * 1600) :=
  Times8.kravatteCompress_ok rfl rfl rfl len x k input len hk hx h8 hl h64 (Nat.le_refl _)

/-- C52, expansion, for every output of at least eight blocks, also on i386: the blocks are those of the serial code, and the bytes after them
are not modified. -/
theorem C52_expand (i386 : Bool) (y kRoll output : Bytes) (len : Nat) (hk : kRoll.length = 200) (hy : y.length = 200) (h8 : 1600 ≤ len)
    (hl : len ≤ output.length) (h64 : len < if i386 then 2 ^ 32 else 2 ^ 64) :
    Times8.kravatteExpand i386 len y kRoll output len = some (Nat.repeat (Farfalle.re serial) (len / 1600 * 8) y,
      Farfalle.gen serial kRoll (len / 1600 * 8) y ++ output.drop (len / 1600 * 1600), len / 1600 * 1600) :=
  Times8.kravatteExpand_ok rfl rfl i386 len y kRoll output len hk hy h8 hl (by cases i386 <;> exact h64) (Nat.le_refl _)

/-- What is called in `ParallelCompressLoopFast(8)` (Kravatte.c:104-109).  Lengths that do not fit in a `size_t` cannot occur; for these the
function is the contract. -/
def compress (k x m : Bytes) : Bytes × Bytes × Nat :=
  if m.length < 2 ^ 64 then (Times8.kravatteCompress false m.length x k m m.length).getD ([], [], 0)
  else ((Farfalle.eat serial (m.length / 1600 * 8) (k, x) m).1, (Farfalle.eat serial (m.length / 1600 * 8) (k, x) m).2, m.length / 1600 * 1600)

/-- What is called in `ParallelExpandLoopFast(8)` (Kravatte.c:111-116): the new `yAccu` and the bytes that count as written. -/
def expand (y kRoll : Bytes) (len : Nat) : Bytes × Bytes :=
  if len < 2 ^ 64 then
    ((Times8.kravatteExpand false len y kRoll (Bytes.zeros len) len).map fun r => (r.1, r.2.1.take r.2.2)).getD ([], [])
  else (Nat.repeat (Farfalle.re serial) (len / 1600 * 8) y, Farfalle.gen serial kRoll (len / 1600 * 8) y)

/-- The AVX-512 path of `Kravatte.c`. -/
def path : Path := .fast 8 compress expand

theorem compress_eq (k x m : Bytes) (hk : k.length = 200) (hx : x.length = 200) (h8 : 1600 ≤ m.length) :
    compress k x m = ((Farfalle.eat serial (m.length / 1600 * 8) (k, x) m).1, (Farfalle.eat serial (m.length / 1600 * 8) (k, x) m).2,
      m.length / 1600 * 1600) := by
  unfold compress
  split
  · rename_i h
    rw [C52_compress x k m m.length hk hx h8 (Nat.le_refl _) h]; rfl
  · rfl

theorem expand_eq (y kRoll : Bytes) (len : Nat) (hk : kRoll.length = 200) (hy : y.length = 200) (h8 : 1600 ≤ len) :
    expand y kRoll len = (Nat.repeat (Farfalle.re serial) (len / 1600 * 8) y, Farfalle.gen serial kRoll (len / 1600 * 8) y) := by
  unfold expand
  split
  · rename_i h
    rw [C52_expand false y kRoll _ len hk hy h8 (by rw [Bytes.length_zeros]) h]
    have hg := Times4.length_gen6 (C := serial) rfl hk (len / 1600 * 8) y
    show (_, _) = _
    rw [List.take_left' (by rw [hg]; show 200 * (len / 1600 * 8) = len / 1600 * 1600; omega)]
  · rfl

/-- C52: the AVX-512 path meets the contract of a parallel path. -/
theorem C52_path {permute : Bytes → Bytes} (hp : ∀ s : Bytes, s.length = 200 → (permute s).length = 200 ∧
      Bits.ofBytes (permute s) = Spec.KeccakP.keccakP 6 (Bits.ofBytes s)) {junk : Bytes} {paths : List Path} :
    PathOk (Kravatte.cfg permute junk paths) path := by
  refine ⟨by omega, fun k x m hk hx hm => ?_, fun y kRoll len hy hk hl => ?_⟩
  · change k.length = 200 at hk
    change x.length = 200 at hx
    change 1600 ≤ m.length at hm
    show compress k x m = ((Farfalle.eat _ (m.length / 1600 * 8) (k, x) m).1, (Farfalle.eat _ (m.length / 1600 * 8) (k, x) m).2,
      m.length / 1600 * 8 * 200)
    rw [compress_eq k x m hk hx hm, eat_eq hp _ _ _ _ hk (by omega)]
    refine Prod.ext rfl (Prod.ext rfl ?_)
    show m.length / 1600 * 1600 = m.length / 1600 * 8 * 200
    omega
  · change y.length = 200 at hy
    change kRoll.length = 200 at hk
    change 1600 ≤ len at hl
    show expand y kRoll len = (_, Farfalle.gen _ kRoll (len / 1600 * 8) y)
    rw [expand_eq y kRoll len hk hy hl, gen_eq hp _ _ _ hy]
    rfl

/-- The paths of `Kravatte.c` with the AVX-512 implementations of eight, four and two states (Kravatte.c:276-296, 471-491): the last two have no functions
for Kravatte. -/
def paths : List Path := [path, .plSnP 4, .plSnP 2]

/-- C52: Kravatte with the AVX-512 implementations, for any implementation of Keccak-p[1600, 6] in the serial code, is Farfalle with the
parameters of Kravatte: the theorems C31 to C33 apply to it. -/
theorem C52_kravatte (permute : Bytes → Bytes) (hp : ∀ s : Bytes, s.length = 200 → (permute s).length = 200 ∧
      Bits.ofBytes (permute s) = Spec.KeccakP.keccakP 6 (Bits.ofBytes s)) (junk : Bytes) (hj : junk.length = 200) :
    Valid (Kravatte.cfg permute junk paths) ∧ Matches (Kravatte.cfg permute junk paths) Spec.Kravatte.par :=
  Farfalle.kravatte_ok permute hp junk hj _ (by
    intro p h
    rcases (by simpa [paths] using h : p = path ∨ p = .plSnP 4 ∨ p = .plSnP 2) with rfl | rfl | rfl
    · exact C52_path hp
    · exact (by decide : 0 < 4)
    · exact (by decide : 0 < 2))

/-- C52 spelled out for one string in one call, with the AVX-512 implementations and the optimised 64-bit implementation of the permutation: the
output is Farfalle of the string. -/
theorem C52_full (k : KeccakP1600.Opt64.Cfg) (E0 : KeccakP1600.Opt64.V) (C0 : KeccakP1600.Opt64.C5) (junk : Bytes) (hj : junk.length = 200)
    (kv : Farfalle.Inst) (hs : Farfalle.Sized (Kravatte.cfg (Farfalle.keccakOpt6 k E0 C0) junk paths) kv) (key : Bytes) (keyLen : Nat)
    (hk : (keyLen + 7) / 8 ≤ key.length) (hkl : keyLen < 1600) (input : Bytes) (m : Nat) (hm : (m + 7) / 8 ≤ input.length)
    (hc : Farfalle.Clean input m) (n : Nat) (hn : n + 7 < 2 ^ 64) (init last short : Bool) :
    ∃ kv₀ kv' o, Farfalle.maskDerivation (Kravatte.cfg (Farfalle.keccakOpt6 k E0 C0) junk paths) kv key keyLen = some (0, kv₀) ∧
      Farfalle.full (Kravatte.cfg (Farfalle.keccakOpt6 k E0 C0) junk paths) kv₀ input m n ⟨init, last, short⟩ = some (0, kv', o) ∧
      Farfalle.Holds o (Spec.Farfalle.farfalle (if short then Spec.Kravatte.par.short else Spec.Kravatte.par) ((Bits.ofBytes key).take keyLen)
        [(Bits.ofBytes input).take m] 0 n) := by
  obtain ⟨h1, h2⟩ := C52_kravatte _ (Farfalle.C31_kravatte _ (.inr ⟨k, E0, C0, rfl⟩)) junk hj
  exact Farfalle.C31_full h1 h2 kv hs key keyLen hk hkl input m hm hc n hn init last short

/-! ### i386 -/

/-- Whatever the mask, there is a message for which the serial code adds given blocks to the accumulator, since the permutation is surjective. -/
theorem reach : ∀ (ts : List Bytes) (k x : Bytes), k.length = 200 → (∀ t ∈ ts, t.length = 200) →
    ∃ d : Bytes, d.length = 200 * ts.length ∧ (Farfalle.eat serial ts.length (k, x) d).2 = ts.foldl Bytes.xor x
  | [], _, _, _, _ => ⟨[], rfl, rfl⟩
  | t :: ts, k, x, hk, h => by
    obtain ⟨s, hs, hF⟩ := (KeccakP1600.Ref.computes 6 (by decide)).bijective.2 t (h t (by simp))
    obtain ⟨d, hd, he⟩ := reach ts (Kravatte.rc1 k) (Bytes.xor x t) (Kravatte.length_rc1 hk) (fun t ht => h t (by simp [ht]))
    have hb : (Bytes.xor k s).length = 200 := by rw [Bytes.length_xor, hk, hs]; rfl
    refine ⟨Bytes.xor k s ++ d, by rw [List.length_append, hb, hd, List.length_cons]; omega, ?_⟩
    show (Farfalle.eat serial ts.length (Kravatte.rc1 k, Bytes.xor x (KeccakP1600.Ref.permuteNrounds 6
      (Bytes.xor k ((Bytes.xor k s ++ d).take 200)))) ((Bytes.xor k s ++ d).drop 200)).2 = _
    rw [List.take_left' hb, List.drop_left' hb]
    have : Bytes.xor k (Bytes.xor k s) = s := Kravatte.words_ext (by rw [Bytes.length_xor, hk, hb]; rfl) hs fun p hp => by
      rw [Kravatte.wd_xor hk hb hp, Kravatte.wd_xor hk hs hp, ← BitVec.xor_assoc, BitVec.xor_self, BitVec.zero_xor]
    rw [this]
    rw [show KeccakP1600.Ref.permuteNrounds 6 s = t from hF, he]
    rfl

/-- On i386 the claim is false (F23): `KravatteCompress` changes the last word of the accumulator by at most one bit, whatever the message,
whereas for some message the serial code adds 2 to it. -/
theorem C52_i386_false :
    (∀ x k input : Bytes, ∀ len : Nat, k.length = 200 → x.length = 200 → 1600 ≤ len → len ≤ input.length → len < 2 ^ 32 →
      ∃ k' x', Times8.kravatteCompress true len x k input len = some (k', x', len / 1600 * 1600) ∧
        (wd x' 24 = wd x 24 ∨ wd x' 24 = wd x 24 ^^^ 1)) ∧
    ∀ x k : Bytes, k.length = 200 → x.length = 200 → ∃ input : Bytes, input.length = 1600 ∧ Times8.kravatteCompress true 1600 x k input 1600 ≠
      some ((Farfalle.eat serial 8 (k, x) input).1, (Farfalle.eat serial 8 (k, x) input).2, 1600) := by
  have h1 : ∀ x k input : Bytes, ∀ len : Nat, k.length = 200 → x.length = 200 → 1600 ≤ len → len ≤ input.length → len < 2 ^ 32 →
      ∃ k' x', Times8.kravatteCompress true len x k input len = some (k', x', len / 1600 * 1600) ∧
        (wd x' 24 = wd x 24 ∨ wd x' 24 = wd x 24 ^^^ 1) := by
    intro x k input len hk hx h8 hl h32
    obtain ⟨x', v, e, -, -, h, -⟩ := Times8.kravatteCompress_gen (C := serial) rfl rfl rfl true len x k input len hk hx h8 hl h32 (Nat.le_refl _)
    refine ⟨_, x', e, ?_⟩
    rcases Times8.horizontalLast_i386 v with h0 | h0
    · exact .inl (by rw [h, h0]; exact BitVec.xor_zero)
    · exact .inr (by rw [h, h0])
  refine ⟨h1, fun x k hk hx => ?_⟩
  obtain ⟨d, hd, he⟩ := reach [Bytes.zeros 200, Bytes.zeros 200, Bytes.zeros 200, Bytes.zeros 200, Bytes.zeros 200, Bytes.zeros 200,
    Bytes.zeros 200, mask2] k x hk (by
      have : mask2.length = 200 := by decide +kernel
      simp [this, Bytes.length_zeros])
  refine ⟨d, hd, fun e => ?_⟩
  obtain ⟨k', x', e', h⟩ := h1 x k d 1600 hk hx (by omega) (by rw [hd]; rfl) (by omega)
  rw [e] at e'
  have hx' : (Farfalle.eat serial 8 (k, x) d).2 = x' := by
    generalize Farfalle.eat serial 8 (k, x) d = r at e'
    simp only [Option.some.injEq, Prod.mk.injEq] at e'
    exact e'.2.1
  have h2 : wd x' 24 = wd x 24 ^^^ 2 := by
    rw [← hx']
    refine (congrArg (wd · 24) he).trans ?_
    have hz : (Bytes.zeros 200).length = 200 := Bytes.length_zeros _
    have h0 : ∀ y : Bytes, y.length = 200 → Bytes.xor y (Bytes.zeros 200) = y := fun y hy =>
      Kravatte.words_ext (by rw [Bytes.length_xor, hy, hz]; rfl) hy fun p hp => by
        rw [Kravatte.wd_xor hy hz hp]
        have : ∀ p < 25, wd (Bytes.zeros 200) p = 0 := by decide +kernel
        rw [this p hp]; exact BitVec.xor_zero
    simp only [List.foldl_cons, List.foldl_nil]
    rw [h0 x hx, h0 x hx, h0 x hx, h0 x hx, h0 x hx, h0 x hx, h0 x hx, Kravatte.wd_xor hx (by decide +kernel) (by omega)]
    exact congrArg (wd x 24 ^^^ ·) (by decide +kernel : wd mask2 24 = 2)
  rw [h2] at h
  have hc : ∀ a b : BitVec 64, wd x 24 ^^^ a = wd x 24 ^^^ b → a = b := fun a b h => by
    have := congrArg (wd x 24 ^^^ ·) h
    simpa [← BitVec.xor_assoc] using this
  rcases h with h | h
  · exact absurd (hc 2 0 (h.trans BitVec.xor_zero.symm)) (by decide)
  · exact absurd (hc 2 1 h) (by decide)

/-! ### A case that meets the hypotheses -/

/-- Nine blocks and a bit, which the AVX-512 code processes as one group of eight. -/
example : ∃ k' x', Times8.kravatteCompress false 1807 (Bytes.zeros 200) mask2 (Bytes.zeros 1807) 1807 = some (k', x', 1600) :=
  ⟨_, _, C52_compress (Bytes.zeros 200) mask2 (Bytes.zeros 1807) 1807 (by decide +kernel) (by decide +kernel) (by omega)
    (by rw [Bytes.length_zeros]) (by omega)⟩

end KravatteSimd512
