import Verif.Proofs.XoofffSimdFast
import Verif.Proofs.XoofffAddIs
import Verif.Props.Farfalle

/-!
# C48: the SIMD functions for Xoofff

`Xooffftimes8_CompressFastLoop` and `Xooffftimes8_ExpandFastLoop` of the AVX2 file, and the functions of that name in the three AVX-512 files,
compute on 8, 16 or 4 blocks at a time what the serial code computes block by block, so that Xoofff with any list of these paths is Farfalle
with the parameters of Xoofff, like Xoofff without them.

The specification is `Spec/Farfalle.lean`; what the serial code computes is given by `Farfalle.eat` and `Farfalle.gen`, the contracts under
which C31 proves the code of `Xoofff.c` correct for any SIMD path.
-/

namespace XoofffSimd

open Farfalle (Path PathOk Valid Matches)
open Simd32 (Vec)

/-- The four files; `junk` is an undefined value used by the last one. -/
inductive File
  | avx2times8
  | avx512times16
  | avx512times8
  | avx512times4 (junk : Vec 4)

/-- The number of blocks processed together. -/
def File.lanes : File → Nat
  | .avx2times8 => 8
  | .avx512times16 => 16
  | .avx512times8 => 8
  | .avx512times4 _ => 4

/-- The functions of a file. -/
def File.fast : (f : File) → Fast f.lanes
  | .avx2times8 => avx2
  | .avx512times16 => x16
  | .avx512times8 => y8
  | .avx512times4 junk => y4 junk

/-- Xoofff with the serial code only. -/
def serial : Farfalle.Cfg := Xoofff.cfg Xoodoo.Ref.permute6 (Bytes.zeros 48) []

theorem File.ok (f : File) : ∃ At, FastOk f.fast At := by
  cases f
  · exact ⟨_, avx2_ok⟩
  · exact ⟨_, x16_ok⟩
  · exact ⟨_, y8_ok⟩
  · exact ⟨_, y4_ok _⟩

/-- C48, compression, for every message of at least `lanes` blocks: the new mask, the new accumulator and the number of bytes are those of
processing the blocks one after the other; nothing outside the arrays is accessed. -/
theorem C48_compress (f : File) (k x input : Bytes) (len : Nat) (hk : k.length = 48) (hx : x.length = 48) (h1 : 48 * f.lanes ≤ len)
    (hl : len ≤ input.length) (h64 : len < 2 ^ 64) :
    compressFastLoop f.fast len k x input len = some ((Farfalle.eat serial (len / (48 * f.lanes) * f.lanes) (k, x) input).1,
      (Farfalle.eat serial (len / (48 * f.lanes) * f.lanes) (k, x) input).2, len / (48 * f.lanes) * (48 * f.lanes)) := by
  obtain ⟨At, h⟩ := f.ok
  exact compress_ok h rfl rfl rfl len len hk hx h1 hl h64 (Nat.le_refl _)

/-- C48, expansion, for every output of at least `lanes` blocks: the blocks are those of the serial code, and the bytes after them are not
modified. -/
theorem C48_expand (f : File) (y kRoll output : Bytes) (len : Nat) (hk : kRoll.length = 48) (hy : y.length = 48) (h1 : 48 * f.lanes ≤ len)
    (hl : len ≤ output.length) (h64 : len < 2 ^ 64) :
    expandFastLoop f.fast len y kRoll output len = some (Nat.repeat (Farfalle.re serial) (len / (48 * f.lanes) * f.lanes) y,
      Farfalle.gen serial kRoll (len / (48 * f.lanes) * f.lanes) y ++ output.drop (len / (48 * f.lanes) * (48 * f.lanes)),
      len / (48 * f.lanes) * (48 * f.lanes)) := by
  obtain ⟨At, h⟩ := f.ok
  exact expand_ok h rfl rfl len len hk hy h1 hl h64 (Nat.le_refl _)

/-- What is called in `ParallelCompressLoopFast` (Xoofff.c:121-126).  Lengths that do not fit in a `size_t` cannot occur; for these the
function is the contract. -/
def compress (f : File) (k x m : Bytes) : Bytes × Bytes × Nat :=
  if m.length < 2 ^ 64 then (compressFastLoop f.fast m.length k x m m.length).getD ([], [], 0)
  else ((Farfalle.eat serial (m.length / (48 * f.lanes) * f.lanes) (k, x) m).1,
    (Farfalle.eat serial (m.length / (48 * f.lanes) * f.lanes) (k, x) m).2, m.length / (48 * f.lanes) * (48 * f.lanes))

/-- What is called in `ParallelExpandLoopFast` (Xoofff.c:128-133): the new `yAccu` and the bytes that count as written. -/
def expand (f : File) (y kRoll : Bytes) (len : Nat) : Bytes × Bytes :=
  if len < 2 ^ 64 then ((expandFastLoop f.fast len y kRoll (Bytes.zeros len) len).map fun r => (r.1, r.2.1.take r.2.2)).getD ([], [])
  else (Nat.repeat (Farfalle.re serial) (len / (48 * f.lanes) * f.lanes) y, Farfalle.gen serial kRoll (len / (48 * f.lanes) * f.lanes) y)

/-- The path of `Xoofff.c` that uses a file. -/
def path (f : File) : Path := .fast f.lanes (compress f) (expand f)

theorem compress_eq (f : File) (k x m : Bytes) (hk : k.length = 48) (hx : x.length = 48) (h1 : 48 * f.lanes ≤ m.length) :
    compress f k x m = ((Farfalle.eat serial (m.length / (48 * f.lanes) * f.lanes) (k, x) m).1,
      (Farfalle.eat serial (m.length / (48 * f.lanes) * f.lanes) (k, x) m).2, m.length / (48 * f.lanes) * (48 * f.lanes)) := by
  unfold compress
  split
  · rename_i h
    rw [C48_compress f k x m m.length hk hx h1 (Nat.le_refl _) h]; rfl
  · rfl

theorem mul48 (q n : Nat) : q * (48 * n) = 48 * (q * n) := by
  rw [← Nat.mul_assoc, Nat.mul_comm q 48, Nat.mul_assoc]

theorem expand_eq (f : File) (y kRoll : Bytes) (len : Nat) (hk : kRoll.length = 48) (hy : y.length = 48) (h1 : 48 * f.lanes ≤ len) :
    expand f y kRoll len =
      (Nat.repeat (Farfalle.re serial) (len / (48 * f.lanes) * f.lanes) y, Farfalle.gen serial kRoll (len / (48 * f.lanes) * f.lanes) y) := by
  unfold expand
  split
  · rename_i h
    rw [C48_expand f y kRoll _ len hk hy h1 (by rw [Bytes.length_zeros]) h]
    have hg := length_gen6 (C := serial) rfl hk (len / (48 * f.lanes) * f.lanes) y
    show (_, _) = _
    rw [List.take_left' (by rw [hg]; exact (mul48 _ _).symm)]
  · rfl

/-! ### Any implementation of the permutation in the serial code -/

theorem permute_eq {permute : Bytes → Bytes} (hp : ∀ s : Bytes, s.length = 48 → (permute s).length = 48 ∧
    Bits.ofBytes (permute s) = Spec.Xoodoo.xoodoo 6 (Bits.ofBytes s)) (s : Bytes) (hs : s.length = 48) : permute s = Xoodoo.Ref.permute6 s :=
  Bits.ofBytes_injective ((hp s hs).2.trans (Farfalle.C31_xoofff _ (.inl rfl) s hs).2.symm)

section

variable {permute : Bytes → Bytes} (hp : ∀ s : Bytes, s.length = 48 → (permute s).length = 48 ∧
    Bits.ofBytes (permute s) = Spec.Xoodoo.xoodoo 6 (Bits.ofBytes s)) {junk : Bytes} {paths : List Path}

include hp

theorem eat_eq : ∀ (n : Nat) (k x d : Bytes), k.length = 48 → 48 * n ≤ d.length →
    Farfalle.eat (Xoofff.cfg permute junk paths) n (k, x) d = Farfalle.eat serial n (k, x) d
  | 0, _, _, _, _, _ => rfl
  | n + 1, k, x, d, hk, hd => by
    have e : permute (Bytes.xor k (d.take 48)) = Xoodoo.Ref.permute6 (Bytes.xor k (d.take 48)) :=
      permute_eq hp _ (by rw [Bytes.length_xor, hk, List.length_take]; omega)
    show Farfalle.eat (Xoofff.cfg permute junk paths) n (rc1 k, Bytes.xor x (permute (Bytes.xor k (d.take 48)))) (d.drop 48) = _
    rw [e, eat_eq n _ _ _ (shift_rc1.len k hk) (by rw [List.length_drop]; omega)]
    rfl

theorem gen_eq (kRoll : Bytes) : ∀ (n : Nat) (y : Bytes), y.length = 48 →
    Farfalle.gen (Xoofff.cfg permute junk paths) kRoll n y = Farfalle.gen serial kRoll n y
  | 0, _, _ => rfl
  | n + 1, y, hy => by
    show Bytes.xor kRoll (permute y) ++ Farfalle.gen (Xoofff.cfg permute junk paths) kRoll n (re1 y) = _
    rw [permute_eq hp _ hy, gen_eq kRoll n _ (shift_re1.len y hy)]
    rfl

/-- C48: each of the paths meets the contract of a parallel path. -/
theorem C48_path (f : File) : PathOk (Xoofff.cfg permute junk paths) (path f) := by
  have h0 : 0 < f.lanes := by cases f <;> simp [File.lanes]
  refine ⟨h0, fun k x m hk hx hm => ?_, fun y kRoll len hy hk hl => ?_⟩
  · change k.length = 48 at hk
    change x.length = 48 at hx
    change f.lanes * 48 ≤ m.length at hm
    show compress f k x m = ((Farfalle.eat _ (m.length / (f.lanes * 48) * f.lanes) (k, x) m).1,
      (Farfalle.eat _ (m.length / (f.lanes * 48) * f.lanes) (k, x) m).2, m.length / (f.lanes * 48) * f.lanes * 48)
    rw [Nat.mul_comm f.lanes 48] at hm ⊢
    have h2 := Nat.div_mul_le_self m.length (48 * f.lanes)
    rw [mul48] at h2
    rw [compress_eq f k x m hk hx hm, eat_eq hp _ _ _ _ hk h2]
    refine Prod.ext rfl (Prod.ext rfl ?_)
    show m.length / (48 * f.lanes) * (48 * f.lanes) = m.length / (48 * f.lanes) * f.lanes * 48
    rw [mul48, Nat.mul_comm]
  · change y.length = 48 at hy
    change kRoll.length = 48 at hk
    change f.lanes * 48 ≤ len at hl
    show expand f y kRoll len = (Nat.repeat (Farfalle.re serial) (len / (f.lanes * 48) * f.lanes) y,
      Farfalle.gen _ kRoll (len / (f.lanes * 48) * f.lanes) y)
    rw [Nat.mul_comm f.lanes 48] at hl ⊢
    rw [expand_eq f y kRoll len hk hy hl, gen_eq hp _ _ _ hy]

end

/-- The paths that `Xoofff.c` can have: the functions of a file, or the loops over the `PlSnP` functions. -/
def Simd (p : Path) : Prop := (∃ f, p = path f) ∨ ∃ P, 0 < P ∧ p = .plSnP P

/-- C48: Xoofff with any list of these paths, for any implementation of six rounds of Xoodoo in the serial code, is Farfalle with the
parameters of Xoofff: the theorems C31 to C33 apply to it. -/
theorem C48_xoofff (permute : Bytes → Bytes) (hp : ∀ s : Bytes, s.length = 48 → (permute s).length = 48 ∧
      Bits.ofBytes (permute s) = Spec.Xoodoo.xoodoo 6 (Bits.ofBytes s)) (junk : Bytes) (hj : junk.length = 48)
    (paths : List Path) (hpaths : ∀ p ∈ paths, Simd p) :
    Valid (Xoofff.cfg permute junk paths) ∧ Matches (Xoofff.cfg permute junk paths) Spec.Xoofff.par :=
  Farfalle.xoofff_ok permute hp junk hj paths fun p h => by
    rcases hpaths p h with ⟨f, rfl⟩ | ⟨P, h0, rfl⟩
    · exact C48_path hp f
    · exact h0

/-- The paths of a build for AVX-512 and of one for AVX2 (`times4` then is the SSSE3 file, which has no functions for Xoofff). -/
def builds (j : Vec 4) : List (List Path) :=
  [[path .avx512times16, path .avx512times8, path (.avx512times4 j)], [path .avx2times8, .plSnP 4]]

/-- C48 spelled out for one string in one call, for the two builds and the optimised implementation of the permutation: the output is Farfalle
of the string. -/
theorem C48_full (j : Vec 4) (paths : List Path) (hb : paths ∈ builds j) (junk : Bytes) (hj : junk.length = 48) (xp : Farfalle.Inst)
    (hs : Farfalle.Sized (Xoofff.cfg Farfalle.xoodooOpt6 junk paths) xp) (key : Bytes) (keyLen : Nat)
    (hk : (keyLen + 7) / 8 ≤ key.length) (hkl : keyLen < 384) (input : Bytes) (m : Nat) (hm : (m + 7) / 8 ≤ input.length)
    (hc : Farfalle.Clean input m) (n : Nat) (hn : n + 7 < 2 ^ 64) (init last short : Bool) :
    ∃ kv₀ kv' o, Farfalle.maskDerivation (Xoofff.cfg Farfalle.xoodooOpt6 junk paths) xp key keyLen = some (0, kv₀) ∧
      Farfalle.full (Xoofff.cfg Farfalle.xoodooOpt6 junk paths) kv₀ input m n ⟨init, last, short⟩ = some (0, kv', o) ∧
      Farfalle.Holds o (Spec.Farfalle.farfalle (if short then Spec.Xoofff.par.short else Spec.Xoofff.par) ((Bits.ofBytes key).take keyLen)
        [(Bits.ofBytes input).take m] 0 n) := by
  obtain ⟨h1, h2⟩ := C48_xoofff _ (Farfalle.C31_xoofff _ (.inr rfl)) junk hj paths fun p hp => by
    simp only [builds, List.mem_cons, List.not_mem_nil, or_false] at hb
    rcases hb with rfl | rfl <;> simp only [List.mem_cons, List.not_mem_nil, or_false] at hp
    · rcases hp with rfl | rfl | rfl <;> exact .inl ⟨_, rfl⟩
    · rcases hp with rfl | rfl
      · exact .inl ⟨_, rfl⟩
      · exact .inr ⟨4, by omega, rfl⟩
  exact Farfalle.C31_full h1 h2 xp hs key keyLen hk hkl input m hm hc n hn init last short

/-- The body of the first loop of `AddIs` of a file. -/
def File.big : File → Bytes → Bytes → Option Bytes
  | .avx2times8 => add128
  | _ => add128'

/-- C48, `AddIs`: the function that replaces `Xoofff_AddIs` gives the same buffer, so the theorems on the modes (C34 to C36) hold with it. -/
theorem C48_addIs (f : File) (output input : Bytes) (bitLen : Nat) (ho : (bitLen + 7) / 8 ≤ output.length)
    (hi : (bitLen + 7) / 8 ≤ input.length) : addIs f.big output input bitLen = Farfalle.addIs output input bitLen :=
  addIs_ok (by cases f <;> first | exact add128_ok | exact add128'_ok) output input bitLen ho hi

/-! ### A case that meets the hypotheses -/

/-- 35 blocks and a bit, which the 16-way code processes as two groups. -/
example : ∃ k' x', compressFastLoop x16 1687 (Bytes.zeros 48) (Bytes.zeros 48) (Bytes.zeros 1687) 1687 = some (k', x', 1536) :=
  ⟨_, _, C48_compress .avx512times16 (Bytes.zeros 48) (Bytes.zeros 48) (Bytes.zeros 1687) 1687 (by decide +kernel) (by decide +kernel)
    (by show 48 * 16 ≤ 1687; omega) (by rw [Bytes.length_zeros]) (by omega)⟩

/-- 1403 bits: one group of 128 bytes, one of 32, one of 8, 7 bytes and 3 bits. -/
example : addIs add128 (Bytes.zeros 176) (List.replicate 176 0xFF#8) 1403 =
    some (List.replicate 175 0xFF#8 ++ [0x07#8]) := by
  refine (C48_addIs .avx2times8 _ _ _ (by decide +kernel) (by decide +kernel)).trans ?_
  decide +kernel

end XoofffSimd
