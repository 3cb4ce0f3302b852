import Verif.Proofs.XoodooTimes4NeonFast
import Verif.Props.XoofffSimd

/-!
# C71: the functions for Xoofff of the ARMv7A assembly with NEON of four Xoodoo

`Xooffftimes4_CompressFastLoop` and `Xooffftimes4_ExpandFastLoop` process groups of four blocks.  The four masks are made of one vector of 16 words and transposed with the
blocks, and the results are transposed back.  The two functions do nothing and return 0 when the input or the output is not at a multiple of 4, and the caller
then processes the blocks with the serial code.  `Xooffftimes4_AddIs` takes the place of `Xoofff_AddIs`.

The registers before a call (`g`) and the addresses (`base`, `a0`, `a1`) are arbitrary.  The functions on full blocks need at least four blocks, with which they are called.
-/

namespace XoodooTimes4Neon

open Farfalle (Path PathOk Valid Matches)
open XoofffSimd (serial)

/-- C71, `Xooffftimes4_CompressFastLoop`: with `n` blocks processed, all groups of four if the input is at a multiple of 4 and none otherwise, the new mask and the new accumulator are
those of processing the `n` blocks one after the other, and the serial code finishes the work on the rest of the input, whatever `n` is. -/
theorem C71_compress (g : Regs) (base : Nat) (k x input : Bytes) (len : Nat) (hk : k.length = 48) (hx : x.length = 48) (h1 : 192 ≤ len)
    (hl : len ≤ input.length) (h32 : len < 2 ^ 32) : ∃ k' x' n, compressFastLoop g base k x input len = some (k', x', 48 * n) ∧
      n = (if base % 4 = 0 then len / 192 * 4 else 0) ∧ Farfalle.eat serial n (k, x) input = (k', x') ∧
      ∀ m, n ≤ m → Farfalle.eat serial (m - n) (k', x') (input.drop (48 * n)) = Farfalle.eat serial m (k, x) input := by
  refine ⟨_, _, if base % 4 = 0 then len / 192 * 4 else 0, ?_, rfl, rfl, fun m hm => ?_⟩
  · by_cases hb : base % 4 = 0
    · rw [if_pos hb, compress_ok (C := serial) rfl rfl rfl g hb hk hx len h1 hl h32, show 48 * (len / 192 * 4) = len / 192 * 192 by omega]
    · rw [if_neg hb, compressFastLoop, if_neg hb]
      rfl
  · generalize (if base % 4 = 0 then len / 192 * 4 else 0) = n at hm
    have e := Farfalle.eat_add (C := serial) n (m - n) (k, x) input
    rw [show n + (m - n) = m by omega, show n * serial.width = 48 * n from Nat.mul_comm n 48] at e
    exact e.symm

/-- C71, `Xooffftimes4_ExpandFastLoop`: with `n` blocks produced, as many as above, the blocks and the new accumulator are those of the serial code, which goes on with the rest, and the
bytes after the blocks are not modified. -/
theorem C71_expand (g : Regs) (base : Nat) (y kRoll output : Bytes) (len : Nat) (hy : y.length = 48) (hk : kRoll.length = 48) (h1 : 192 ≤ len)
    (hl : len ≤ output.length) (h32 : len < 2 ^ 32) : ∃ y' n, expandFastLoop g base y kRoll output len =
        some (y', Farfalle.gen serial kRoll n y ++ output.drop (48 * n), 48 * n) ∧ n = (if base % 4 = 0 then len / 192 * 4 else 0) ∧
      y' = Nat.repeat (Farfalle.re serial) n y ∧
      ∀ m, n ≤ m → Farfalle.gen serial kRoll n y ++ Farfalle.gen serial kRoll (m - n) y' = Farfalle.gen serial kRoll m y := by
  refine ⟨_, if base % 4 = 0 then len / 192 * 4 else 0, ?_, rfl, rfl, fun m hm => ?_⟩
  · by_cases hb : base % 4 = 0
    · rw [if_pos hb, expand_ok (C := serial) rfl rfl g hb hy hk len h1 hl h32, show 48 * (len / 192 * 4) = len / 192 * 192 by omega]
    · rw [if_neg hb, expandFastLoop, if_neg hb]
      rfl
  · generalize (if base % 4 = 0 then len / 192 * 4 else 0) = n at hm
    have e := Farfalle.gen_add (C := serial) kRoll n (m - n) y
    rw [show n + (m - n) = m by omega] at e
    exact e.symm

/-- What is called at Xoofff.c:121-126 with this implementation, for messages at a multiple of 4.  Lengths that do not fit in a `size_t` cannot occur; for these the function is
the contract. -/
def compress (g : Regs) (base : Nat) (k x m : Bytes) : Bytes × Bytes × Nat :=
  if m.length < 2 ^ 32 then (compressFastLoop g (4 * base) k x m m.length).getD ([], [], 0)
  else ((Farfalle.eat serial (m.length / 192 * 4) (k, x) m).1, (Farfalle.eat serial (m.length / 192 * 4) (k, x) m).2, m.length / 192 * 192)

/-- What is called at Xoofff.c:128-133, for output at a multiple of 4: the new `yAccu` and the bytes that count as written. -/
def expand (g : Regs) (base : Nat) (y kRoll : Bytes) (len : Nat) : Bytes × Bytes :=
  if len < 2 ^ 32 then ((expandFastLoop g (4 * base) y kRoll (Bytes.zeros len) len).map fun r => (r.1, r.2.1.take r.2.2)).getD ([], [])
  else (Nat.repeat (Farfalle.re serial) (len / 192 * 4) y, Farfalle.gen serial kRoll (len / 192 * 4) y)

/-- The path of `Xoofff.c` with this implementation. -/
def path (g : Regs) (base : Nat) : Path := .fast 4 (compress g base) (expand g base)

theorem compress_eq (g : Regs) (base : Nat) (k x m : Bytes) (hk : k.length = 48) (hx : x.length = 48) (h1 : 192 ≤ m.length) : compress g base k x m =
    ((Farfalle.eat serial (m.length / 192 * 4) (k, x) m).1, (Farfalle.eat serial (m.length / 192 * 4) (k, x) m).2, m.length / 192 * 192) := by
  unfold compress
  split
  · rename_i h
    rw [compress_ok (C := serial) rfl rfl rfl g (by omega) hk hx _ h1 (Nat.le_refl _) h]
    rfl
  · rfl

theorem expand_eq (g : Regs) (base : Nat) (y kRoll : Bytes) (len : Nat) (hk : kRoll.length = 48) (hy : y.length = 48) (h1 : 192 ≤ len) :
    expand g base y kRoll len = (Nat.repeat (Farfalle.re serial) (len / 192 * 4) y, Farfalle.gen serial kRoll (len / 192 * 4) y) := by
  unfold expand
  split
  · rename_i h
    have hg := XoofffSimd.length_gen6 (C := serial) rfl hk (len / 192 * 4) y
    rw [expand_ok (C := serial) rfl rfl g (by omega) hy hk len h1 (by rw [Bytes.length_zeros]) h]
    show (Nat.repeat (Farfalle.re serial) (len / 192 * 4) y,
      (Farfalle.gen serial kRoll (len / 192 * 4) y ++ (Bytes.zeros len).drop (len / 192 * 192)).take (len / 192 * 192)) = _
    rw [List.take_left' (by rw [hg]; omega)]
  · rfl

section

variable {permute : Bytes → Bytes} (hp : ∀ s : Bytes, s.length = 48 → (permute s).length = 48 ∧
    Bits.ofBytes (permute s) = Spec.Xoodoo.xoodoo 6 (Bits.ofBytes s)) {junk : Bytes} {paths : List Path}

include hp

/-- C71: the functions for Xoofff meet the contract of a path of four lanes, when they are called with aligned buffers. -/
theorem C71_path (g : Regs) (base : Nat) : PathOk (Xoofff.cfg permute junk paths) (path g base) := by
  refine ⟨by decide, fun k x m hk hx hm => ?_, fun y kRoll len hy hk hl => ?_⟩
  · change k.length = 48 at hk
    change x.length = 48 at hx
    change 192 ≤ m.length at hm
    show compress g base k x m = ((Farfalle.eat _ (m.length / 192 * 4) (k, x) m).1,
      (Farfalle.eat _ (m.length / 192 * 4) (k, x) m).2, m.length / 192 * 4 * 48)
    rw [compress_eq g base k x m hk hx hm, XoofffSimd.eat_eq hp _ _ _ _ hk (by omega), Nat.mul_assoc]
  · change y.length = 48 at hy
    change kRoll.length = 48 at hk
    change 192 ≤ len at hl
    show expand g base y kRoll len = (Nat.repeat (Farfalle.re serial) (len / 192 * 4) y, Farfalle.gen _ kRoll (len / 192 * 4) y)
    rw [expand_eq g base y kRoll len hk hy hl, XoofffSimd.gen_eq hp _ _ _ hy]

/-- C71: Xoofff with these functions, for any implementation of six rounds of Xoodoo in the serial code, is Farfalle with the parameters of Xoofff. -/
theorem C71_xoofff (g : Regs) (base : Nat) (hj : junk.length = 48) :
    Valid (Xoofff.cfg permute junk [path g base]) ∧ Matches (Xoofff.cfg permute junk [path g base]) Spec.Xoofff.par :=
  Farfalle.xoofff_ok _ hp junk hj _ fun p h => by
    rw [List.mem_singleton] at h
    subst h
    exact C71_path hp g base

end

/-- C71, `Xooffftimes4_AddIs`: for buffers at any addresses, the result is that of the function in C, and nothing outside of the buffers is accessed. -/
theorem C71_addIs (a0 a1 : Nat) (output input : Bytes) (bitLen : Nat) (ho : (bitLen + 7) / 8 ≤ output.length) (hi : (bitLen + 7) / 8 ≤ input.length)
    (h32 : bitLen < 2 ^ 32) : addIs a0 a1 output input bitLen = Farfalle.addIs output input bitLen :=
  addIs_eq a0 a1 output input bitLen ho hi h32

/-! ### Cases that meet the hypotheses -/

/-- Registers with some contents. -/
def fastRegs : Regs := let v : Simd32.Vec 4 := fun _ => 7; ⟨v, v, v, v, v, v, v, v, v, v, v, v, v, v, v, v⟩

-- 500 bytes at an address that is a multiple of 4: two groups of four blocks
example : ∃ k' x', compressFastLoop fastRegs 1004 (Bytes.zeros 48) (Bytes.zeros 48) (List.replicate 500 0xA5#8) 500 = some (k', x', 384) ∧
    Farfalle.eat serial 8 (Bytes.zeros 48, Bytes.zeros 48) (List.replicate 500 0xA5#8) = (k', x') := by
  obtain ⟨k', x', n, h1, rfl, h3, _⟩ := C71_compress fastRegs 1004 (Bytes.zeros 48) (Bytes.zeros 48) (List.replicate 500 0xA5#8) 500
    (by decide) (by decide) (by decide) (by decide +kernel) (by decide)
  exact ⟨k', x', h1, h3⟩

-- the same at an odd address: nothing is done
example : ∃ k' x', compressFastLoop fastRegs 1005 (Bytes.zeros 48) (Bytes.zeros 48) (List.replicate 500 0xA5#8) 500 = some (k', x', 0) ∧
    (Bytes.zeros 48, Bytes.zeros 48) = (k', x') := by
  obtain ⟨k', x', n, h1, rfl, h3, _⟩ := C71_compress fastRegs 1005 (Bytes.zeros 48) (Bytes.zeros 48) (List.replicate 500 0xA5#8) 500
    (by decide) (by decide) (by decide) (by decide +kernel) (by decide)
  exact ⟨k', x', h1, h3⟩

-- 200 bytes of output: four blocks, and the last 8 bytes are not touched
example : ∃ y', expandFastLoop fastRegs 0 (Bytes.zeros 48) (Bytes.zeros 48) (Bytes.zeros 200) 200 =
    some (y', Farfalle.gen serial (Bytes.zeros 48) 4 (Bytes.zeros 48) ++ (Bytes.zeros 200).drop 192, 192) := by
  obtain ⟨y', n, h1, rfl, _⟩ := C71_expand fastRegs 0 (Bytes.zeros 48) (Bytes.zeros 48) (Bytes.zeros 200) 200
    (by decide) (by decide) (by decide) (by decide +kernel) (by decide)
  exact ⟨y', h1⟩

-- the output of the reference implementation of the permutation meets the hypothesis of `C71_xoofff`
example : Valid (Xoofff.cfg Farfalle.xoodooOpt6 (Bytes.zeros 48) [path fastRegs 5]) :=
  (C71_xoofff (Farfalle.C31_xoofff _ (.inr rfl)) fastRegs 5 (by decide)).1

-- 67 bytes and 5 bits, aligned and not
example : addIs 8 12 (Bytes.zeros 70) ((List.range 70).map (BitVec.ofNat 8)) 541 = addIs 9 12 (Bytes.zeros 70) ((List.range 70).map (BitVec.ofNat 8)) 541 :=
  (C71_addIs _ _ _ _ _ (by decide) (by decide) (by decide)).trans (C71_addIs _ _ _ _ _ (by decide) (by decide) (by decide)).symm

end XoodooTimes4Neon
