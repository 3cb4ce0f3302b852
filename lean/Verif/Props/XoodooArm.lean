import Verif.Proofs.XoodooArmBytes
import Verif.Props.XoodooPlanes

/-!
# C62: the 32-bit ARM assembly of Xoodoo, Xoofff and Xoodyak

The rounds of the assembly leave the planes of the state rotated and keep track of the rotations from one round to the next; the registers
of two planes are renamed.  The permutations are Xoodoo[6] and Xoodoo[12], the byte access functions are those of
`doc/SnP-documentation.h`, the functions for Xoofff are those of the serial code and the full-block functions for Xoodyak give the state, the
output and the returned value of `plain/Xoodyak-full-blocks.c`.

The registers before a call are arbitrary (`g`).  The functions on full blocks need at least one block, with which they are called.
-/

namespace XoodooArm

open Xoodoo (Lanes bytesOfLanes length_bytesOfLanes)
open Farfalle (Path PathOk Valid Matches)
open XoofffSimd (serial)

/-- C62: the permutation functions do to the bytes of the state what the reference functions do, also the one of Xoodyak, which has the
state in registers. -/
theorem C62_permute (g : Regs) (A : Lanes) :
    bytesOfLanes (permute6 g A) = Xoodoo.Ref.permute6 (bytesOfLanes A) ∧
    bytesOfLanes (permute12 g A) = Xoodoo.Ref.permute12 (bytesOfLanes A) ∧
    bytesOfLanes (stm (permute12Asm (ldm g A))) = Xoodoo.Ref.permute12 (bytesOfLanes A) := by
  refine ⟨?_, ?_, ?_⟩
  · rw [permute6_eq, Xoodoo.Ref.permute6, Xoodoo.Ref.permuteNrounds, Xoodoo.lanesOfBytes_bytesOfLanes]
  · rw [permute12_eq, Xoodoo.Ref.permute12, Xoodoo.Ref.permuteNrounds, Xoodoo.lanesOfBytes_bytesOfLanes]
  · rw [permute12Asm_eq, stm_ldm, Xoodoo.Ref.permute12, Xoodoo.Ref.permuteNrounds, Xoodoo.lanesOfBytes_bytesOfLanes]

/-- C62: the permutation functions are Xoodoo[6] and Xoodoo[12]. -/
theorem C62_permute_spec (g : Regs) (A : Lanes) :
    Bits.ofBytes (bytesOfLanes (permute6 g A)) = Spec.Xoodoo.xoodoo 6 (Bits.ofBytes (bytesOfLanes A)) ∧
    Bits.ofBytes (bytesOfLanes (permute12 g A)) = Spec.Xoodoo.xoodoo 12 (Bits.ofBytes (bytesOfLanes A)) := by
  obtain ⟨h1, h2, _⟩ := C62_permute g A
  have hr := (Xoodoo.C42_ref (bytesOfLanes A) (length_bytesOfLanes A)).1
  exact ⟨by rw [h1, Xoodoo.Ref.permute6, (hr 6 (by decide)).2], by rw [h2, Xoodoo.Ref.permute12, (hr 12 (by decide)).2]⟩

/-- C62: the byte access functions. -/
theorem C62_access : access.Implements 48 (fun s => s.length = 48) id where
  length := fun s hs => hs
  init := by
    have : access.init = List.replicate 48 0 := by show bytesOfLanes (fun _ => 0) = _; decide +kernel
    rw [this]
    exact ⟨List.length_replicate, rfl⟩
  addByte := by
    intro s b o hs ho
    have := Bytes.updated_xorAt s o 1 [b] (by simp)
    refine ⟨_, addByte_eq s hs b o ho, by rw [Bytes.length_xorAt]; exact hs, this.1, fun j hj => ?_⟩
    rw [show Bytes.xorAt s o [b] = Bytes.xorAt s o ([b].take 1) from rfl]
    refine (this.2 j hj).trans ?_
    split
    · rename_i hj; rw [show j - o = 0 by omega]; rfl
    · rfl
  addBytes := by
    intro s d o len hs h hd
    exact ⟨_, addBytes_eq s d hs o len h hd, by rw [Bytes.length_xorAt]; exact hs, Bytes.updated_xorAt _ o len d hd⟩
  overwriteBytes := by
    intro s d o len hs h hd
    exact ⟨_, overwriteBytes_eq s d hs o len h hd, by rw [Bytes.length_setAt]; exact hs, Bytes.updated_setAt _ o len d hd⟩
  overwriteWithZeroes := by
    intro s n hs h
    exact ⟨_, overwriteWithZeroes_eq s hs n h, by rw [Bytes.length_setAt]; exact hs, Bytes.updated_zeroes _ n⟩
  extractBytes := by
    intro s o len hs h
    exact ⟨_, extractBytes_eq s hs o len h, Bytes.slice_spec _ o len (by show o + len ≤ s.length; rw [hs]; exact h)⟩
  extractAndAddBytes := by
    intro s d o len hs h hd
    exact ⟨_, extractAndAddBytes_eq s d hs o len h hd, Bytes.xor_slice_spec _ d o len (by show o + len ≤ s.length; rw [hs]; exact h) hd⟩

/-! ### Xoodyak -/

theorem B_ldm (g : Regs) (A : Lanes) : B (ldm g A) = bytesOfLanes A := by rw [B, stm_ldm]

/-- What the full-block functions return: the length without the bytes that are left. -/
theorem ret {n r len : Nat} (hn : n ≤ len) (hr : r ≤ 44) (h32 : len < 2 ^ 32) : sub32 len (add32 (sub32 n r) r) = len - n := by
  unfold sub32 add32; omega

/-- C62, `Xoodyak_AbsorbKeyedFullBlocks` and `Xoodyak_AbsorbHashFullBlocks`, with at least one block: the state and the returned value are
those of the plain implementation, and nothing is read after the message. -/
theorem C62_absorb (g : Regs) (A : Lanes) (X : Bytes) (XLen : Nat) (hl : XLen ≤ X.length) (h32 : XLen < 2 ^ 32) :
    (44 ≤ XLen → ∃ A' n, absorbKeyedFullBlocks g A X XLen = some (A', n) ∧
      Xoodyak.absorbKeyedFullBlocks Xoodoo.Ref.permute12 (bytesOfLanes A) X XLen = some (bytesOfLanes A', n)) ∧
    (16 ≤ XLen → ∃ A' n, absorbHashFullBlocks g A X XLen = some (A', n) ∧
      Xoodyak.absorbHashFullBlocks Xoodoo.Ref.permute12 (bytesOfLanes A) X XLen = some (bytesOfLanes A', n)) := by
  refine ⟨fun h => ?_, fun h => ?_⟩
  · obtain ⟨g', X', n, e1, e2, e3⟩ := absorbLoop_ok (rs := [2, 3, 4, 5, 6, 7, 8, 9, 10, 11, 12]) (n := 11) (by decide) (by decide) (by decide)
      14 (by decide) X (XLen + 1) (2 ^ 32) (ldm g A) 0 XLen h (by omega) h32 (by omega) h32
    rw [B_ldm, List.drop_zero] at e1
    refine ⟨stm g', XLen - n, ?_, ?_⟩
    · rw [absorbKeyedFullBlocks, sub32_eq h h32, e2, Option.bind_eq_bind, Option.bind_some, ret e3 (by decide) h32]
    · rw [Xoodyak.absorbKeyedFullBlocks, show Xoodyak.Rkin = 4 * 11 from rfl, e1]; rfl
  · obtain ⟨g', X', n, e1, e2, e3⟩ := absorbLoop_ok (rs := [2, 3, 4, 5]) (n := 4) (by decide) (by decide) (by decide)
      6 (by decide) X (XLen + 1) (2 ^ 32) (ldm g A) 0 XLen h (by omega) h32 (by omega) h32
    rw [B_ldm, List.drop_zero] at e1
    refine ⟨stm g', XLen - n, ?_, ?_⟩
    · rw [absorbHashFullBlocks, sub32_eq h h32, e2, Option.bind_eq_bind, Option.bind_some, ret e3 (by decide) h32]
    · rw [Xoodyak.absorbHashFullBlocks, show Xoodyak.Rhash = 4 * 4 from rfl, e1]; rfl

/-- C62, `Xoodyak_SqueezeKeyedFullBlocks` and `Xoodyak_SqueezeHashFullBlocks`: also the bytes written are those of the plain implementation,
and no others are modified. -/
theorem C62_squeeze (g : Regs) (A : Lanes) (Y : Bytes) (YLen : Nat) (hl : YLen ≤ Y.length) (h32 : YLen < 2 ^ 32) :
    (24 ≤ YLen → ∃ A' out n, squeezeKeyedFullBlocks g A Y YLen = some (A', Bytes.setAt Y 0 out, n) ∧ out.length = n ∧
      Xoodyak.squeezeKeyedFullBlocks Xoodoo.Ref.permute12 (bytesOfLanes A) YLen = some (bytesOfLanes A', out, n)) ∧
    (16 ≤ YLen → ∃ A' out n, squeezeHashFullBlocks g A Y YLen = some (A', Bytes.setAt Y 0 out, n) ∧ out.length = n ∧
      Xoodyak.squeezeHashFullBlocks Xoodoo.Ref.permute12 (bytesOfLanes A) YLen = some (bytesOfLanes A', out, n)) := by
  refine ⟨fun h => ?_, fun h => ?_⟩
  · obtain ⟨g', out, n, e1, e2, e3, e4⟩ := squeezeLoop_ok (rs := [2, 3, 4, 5, 6, 7]) (n := 6) (by decide) (by decide) (by decide)
      (YLen + 1) (2 ^ 32) (ldm g A) Y 0 YLen h (by omega) h32 (by omega) h32
    rw [B_ldm] at e1
    refine ⟨stm g', out, YLen - n, ?_, e4, ?_⟩
    · rw [squeezeKeyedFullBlocks, sub32_eq h h32, e2, Option.bind_eq_bind, Option.bind_some, ret e3 (by decide) h32]
    · rw [Xoodyak.squeezeKeyedFullBlocks, show Xoodyak.Rkout = 4 * 6 from rfl, e1]; rfl
  · obtain ⟨g', out, n, e1, e2, e3, e4⟩ := squeezeLoop_ok (rs := [2, 3, 4, 5]) (n := 4) (by decide) (by decide) (by decide)
      (YLen + 1) (2 ^ 32) (ldm g A) Y 0 YLen h (by omega) h32 (by omega) h32
    rw [B_ldm] at e1
    refine ⟨stm g', out, YLen - n, ?_, e4, ?_⟩
    · rw [squeezeHashFullBlocks, sub32_eq h h32, e2, Option.bind_eq_bind, Option.bind_some, ret e3 (by decide) h32]
    · rw [Xoodyak.squeezeHashFullBlocks, show Xoodyak.Rhash = 4 * 4 from rfl, e1]; rfl

theorem crypt_ok (dec : Bool) (g : Regs) (A : Lanes) (mem : Bytes) (i o IOLen : Nat) (h : 24 ≤ IOLen) (hi : i + IOLen ≤ mem.length)
    (ho : o + IOLen ≤ mem.length) (h32 : IOLen < 2 ^ 32) (hov : o ≤ i ∨ i + IOLen ≤ o) :
    ∃ A' out n, cryptFullBlocks dec g A mem i o IOLen = some (A', Bytes.setAt mem o out, IOLen - n) ∧ out.length = IOLen - n ∧
      Xoodyak.cryptFull Xoodoo.Ref.permute12 dec (IOLen + 1) (bytesOfLanes A) (mem.drop i) IOLen = some (bytesOfLanes A', out, n) := by
  obtain ⟨g', out, n, e1, e2, e3, e4⟩ := cryptLoop_ok dec (IOLen + 1) (2 ^ 32) (ldm g A) mem (mem.drop i) i o IOLen h hi ho h32 (by omega) h32
    hov rfl (by rw [List.length_drop]; omega)
  rw [B_ldm] at e1
  refine ⟨stm g', out, n, ?_, e4, e1⟩
  rw [cryptFullBlocks, sub32_eq h h32, e2, Option.bind_eq_bind, Option.bind_some, ret e3 (by decide) h32]

/-- C62, `Xoodyak_EncryptFullBlocks` and `Xoodyak_DecryptFullBlocks` with the input at position `i` and the output at position `o` of the
memory: the state, the output and the returned value are those of the plain implementation.  The buffers may overlap if the output does not
begin after the input; in particular they may be the same, also for decryption, where the intrinsics of `C50_decrypt_inplace_false` fail. -/
theorem C62_crypt (g : Regs) (A : Lanes) (mem : Bytes) (i o IOLen : Nat) (h : 24 ≤ IOLen) (hi : i + IOLen ≤ mem.length)
    (ho : o + IOLen ≤ mem.length) (h32 : IOLen < 2 ^ 32) (hov : o ≤ i ∨ i + IOLen ≤ o) :
    (∃ A' out n, cryptFullBlocks false g A mem i o IOLen = some (A', Bytes.setAt mem o out, n) ∧ out.length = n ∧
      Xoodyak.encryptFullBlocks Xoodoo.Ref.permute12 (bytesOfLanes A) (mem.drop i) IOLen = some (bytesOfLanes A', out, n)) ∧
    (∃ A' out n, cryptFullBlocks true g A mem i o IOLen = some (A', Bytes.setAt mem o out, n) ∧ out.length = n ∧
      Xoodyak.decryptFullBlocks Xoodoo.Ref.permute12 (bytesOfLanes A) (mem.drop i) IOLen = some (bytesOfLanes A', out, n)) := by
  refine ⟨?_, ?_⟩
  · obtain ⟨A', out, n, e1, e2, e3⟩ := crypt_ok false g A mem i o IOLen h hi ho h32 hov
    refine ⟨A', out, IOLen - n, e1, e2, ?_⟩
    rw [Xoodyak.encryptFullBlocks]
    change (Xoodyak.cryptFull Xoodoo.Ref.permute12 false (IOLen + 1) (bytesOfLanes A) (mem.drop i) IOLen).bind _ = _
    rw [e3]; rfl
  · obtain ⟨A', out, n, e1, e2, e3⟩ := crypt_ok true g A mem i o IOLen h hi ho h32 hov
    refine ⟨A', out, IOLen - n, e1, e2, ?_⟩
    rw [Xoodyak.decryptFullBlocks]
    change (Xoodyak.cryptFull Xoodoo.Ref.permute12 true (IOLen + 1) (bytesOfLanes A) (mem.drop i) IOLen).bind _ = _
    rw [e3]; rfl

/-! ### Xoofff -/

/-- C62, `Xoofff_CompressFastLoop`: the new mask, the new accumulator and the number of bytes are those of processing the blocks one after
the other. -/
theorem C62_compress (g : Regs) (k x : Lanes) (input : Bytes) (len : Nat) (h1 : 48 ≤ len) (hl : len ≤ input.length) (h32 : len < 2 ^ 32) :
    ∃ k' x', compressFastLoop g k x input len = some (k', x', len / 48 * 48) ∧
      Farfalle.eat serial (len / 48) (bytesOfLanes k, bytesOfLanes x) input = (bytesOfLanes k', bytesOfLanes x') := by
  obtain ⟨k', x', e1, e2⟩ := compressLoop_ok (C := serial) rfl rfl rfl input (2 ^ 32) (ldm g k) x 0 len h1 (by omega) h32 h32
  rw [stm_ldm] at e1 e2
  rw [Nat.zero_add] at e1
  exact ⟨k', x', by rw [compressFastLoop, sub32_eq h1 h32, e1], e2⟩

/-- C62, `Xoofff_ExpandFastLoop`: the blocks are those of the serial code, and the bytes after them are not modified. -/
theorem C62_expand (g : Regs) (y k : Lanes) (output : Bytes) (len : Nat) (h1 : 48 ≤ len) (hl : len ≤ output.length) (h32 : len < 2 ^ 32) :
    ∃ y', expandFastLoop g y k output len =
        some (y', Farfalle.gen serial (bytesOfLanes k) (len / 48) (bytesOfLanes y) ++ output.drop (len / 48 * 48), len / 48 * 48) ∧
      Nat.repeat (Farfalle.re serial) (len / 48) (bytesOfLanes y) = bytesOfLanes y' := by
  obtain ⟨y', e1, e2⟩ := expandLoop_ok (C := serial) rfl rfl k (2 ^ 32) (ldm g y) output 0 len h1 (by omega) h32 h32
  rw [stm_ldm] at e1 e2
  have hg := XoofffSimd.length_gen6 (C := serial) rfl (length_bytesOfLanes k) (len / 48) (bytesOfLanes y)
  rw [Nat.zero_add, XoodooPlanes.setAt_front (by omega), hg, show 48 * (len / 48) = len / 48 * 48 by omega] at e1
  exact ⟨y', by rw [expandFastLoop, sub32_eq h1 h32, e1], e2⟩

/-- What is called at Xoofff.c:412-416 with this implementation.  Lengths that do not fit in a `size_t` cannot occur; for these the function is
the contract. -/
def compress (g : Regs) (k x m : Bytes) : Bytes × Bytes × Nat :=
  if m.length < 2 ^ 32 then
    ((compressFastLoop g (Xoodoo.lanesOfBytes k) (Xoodoo.lanesOfBytes x) m m.length).map
      fun r => (bytesOfLanes r.1, bytesOfLanes r.2.1, r.2.2)).getD ([], [], 0)
  else ((Farfalle.eat serial (m.length / 48) (k, x) m).1, (Farfalle.eat serial (m.length / 48) (k, x) m).2, m.length / 48 * 48)

/-- What is called at Xoofff.c:601-605: the new `yAccu` and the bytes that count as written. -/
def expand (g : Regs) (y kRoll : Bytes) (len : Nat) : Bytes × Bytes :=
  if len < 2 ^ 32 then
    ((expandFastLoop g (Xoodoo.lanesOfBytes y) (Xoodoo.lanesOfBytes kRoll) (Bytes.zeros len) len).map
      fun r => (bytesOfLanes r.1, r.2.1.take r.2.2)).getD ([], [])
  else (Nat.repeat (Farfalle.re serial) (len / 48) y, Farfalle.gen serial kRoll (len / 48) y)

/-- The path of `Xoofff.c` with this implementation. -/
def path (g : Regs) : Path := .fast 1 (compress g) (expand g)

theorem compress_eq (g : Regs) (k x m : Bytes) (hk : k.length = 48) (hx : x.length = 48) (h1 : 48 ≤ m.length) : compress g k x m =
    ((Farfalle.eat serial (m.length / 48) (k, x) m).1, (Farfalle.eat serial (m.length / 48) (k, x) m).2, m.length / 48 * 48) := by
  unfold compress
  split
  · rename_i h
    obtain ⟨k', x', e1, e2⟩ := C62_compress g (Xoodoo.lanesOfBytes k) (Xoodoo.lanesOfBytes x) m m.length h1 (Nat.le_refl _) h
    rw [Xoodoo.bytesOfLanes_lanesOfBytes k hk, Xoodoo.bytesOfLanes_lanesOfBytes x hx] at e2
    rw [e1, e2]; rfl
  · rfl

theorem expand_eq (g : Regs) (y kRoll : Bytes) (len : Nat) (hk : kRoll.length = 48) (hy : y.length = 48) (h1 : 48 ≤ len) :
    expand g y kRoll len = (Nat.repeat (Farfalle.re serial) (len / 48) y, Farfalle.gen serial kRoll (len / 48) y) := by
  unfold expand
  split
  · rename_i h
    obtain ⟨y', e1, e2⟩ := C62_expand g (Xoodoo.lanesOfBytes y) (Xoodoo.lanesOfBytes kRoll) (Bytes.zeros len) len h1
      (by rw [Bytes.length_zeros]) h
    rw [Xoodoo.bytesOfLanes_lanesOfBytes y hy] at e1 e2
    rw [Xoodoo.bytesOfLanes_lanesOfBytes kRoll hk] at e1
    have hg := XoofffSimd.length_gen6 (C := serial) rfl hk (len / 48) y
    rw [e1, e2]
    show (_, _) = _
    rw [List.take_left' (by rw [hg]; exact Nat.mul_comm _ _)]
  · rfl

section

variable {permute : Bytes → Bytes} (hp : ∀ s : Bytes, s.length = 48 → (permute s).length = 48 ∧
    Bits.ofBytes (permute s) = Spec.Xoodoo.xoodoo 6 (Bits.ofBytes s)) {junk : Bytes} {paths : List Path}

include hp

/-- C62: the functions for Xoofff meet the contract of a path. -/
theorem C62_path (g : Regs) : PathOk (Xoofff.cfg permute junk paths) (path g) := by
  refine ⟨Nat.one_pos, fun k x m hk hx hm => ?_, fun y kRoll len hy hk hl => ?_⟩
  · change k.length = 48 at hk
    change x.length = 48 at hx
    change 48 ≤ m.length at hm
    show compress g k x m = ((Farfalle.eat _ (m.length / 48 * 1) (k, x) m).1,
      (Farfalle.eat _ (m.length / 48 * 1) (k, x) m).2, m.length / 48 * 1 * 48)
    rw [Nat.mul_one, compress_eq g k x m hk hx hm, XoofffSimd.eat_eq hp _ _ _ _ hk (by omega)]
  · change y.length = 48 at hy
    change kRoll.length = 48 at hk
    change 48 ≤ len at hl
    show expand g y kRoll len = (Nat.repeat (Farfalle.re serial) (len / 48 * 1) y, Farfalle.gen _ kRoll (len / 48 * 1) y)
    rw [Nat.mul_one, expand_eq g y kRoll len hk hy hl, XoofffSimd.gen_eq hp _ _ _ hy]

end

/-- C62: Xoofff with the functions and the permutation of this implementation is Farfalle with the parameters of Xoofff. -/
theorem C62_xoofff (g g' : Regs) (junk : Bytes) (hj : junk.length = 48) :
    Valid (Xoofff.cfg (fun s => bytesOfLanes (permute6 g (Xoodoo.lanesOfBytes s))) junk [path g']) ∧
    Matches (Xoofff.cfg (fun s => bytesOfLanes (permute6 g (Xoodoo.lanesOfBytes s))) junk [path g']) Spec.Xoofff.par := by
  have hp : ∀ s : Bytes, s.length = 48 → (bytesOfLanes (permute6 g (Xoodoo.lanesOfBytes s))).length = 48 ∧
      Bits.ofBytes (bytesOfLanes (permute6 g (Xoodoo.lanesOfBytes s))) = Spec.Xoodoo.xoodoo 6 (Bits.ofBytes s) := fun s hs =>
    ⟨length_bytesOfLanes _, by rw [(C62_permute_spec _ _).1, Xoodoo.bytesOfLanes_lanesOfBytes s hs]⟩
  refine Farfalle.xoofff_ok _ hp junk hj _ fun p h => ?_
  rw [List.mem_singleton] at h
  subst h
  exact C62_path hp g'

/-- C62, `Xoofff_AddIs`: the result is that of the function in C, and nothing outside of the buffers is accessed. -/
theorem C62_addIs (output input : Bytes) (bitLen : Nat) (ho : (bitLen + 7) / 8 ≤ output.length) (hi : (bitLen + 7) / 8 ≤ input.length)
    (h32 : bitLen < 2 ^ 32) : addIs output input bitLen = Farfalle.addIs output input bitLen :=
  addIs_eq output input bitLen ho hi h32

/-! ### Cases that meet the hypotheses -/

-- 100 bytes: two blocks of 44 bytes are absorbed
example : ∃ A' n, absorbKeyedFullBlocks (fun _ => 7) (fun _ => 0) ((List.range 100).map (BitVec.ofNat 8)) 100 = some (A', n) ∧
    Xoodyak.absorbKeyedFullBlocks Xoodoo.Ref.permute12 (bytesOfLanes fun _ => 0) ((List.range 100).map (BitVec.ofNat 8)) 100 =
      some (bytesOfLanes A', n) :=
  (C62_absorb _ _ _ 100 (by decide) (by decide)).1 (by decide)

-- two blocks are decrypted in place
example : ∃ A' out n, cryptFullBlocks true (fun _ => 7) (fun _ => 0) (Bytes.zeros 60) 5 5 50 = some (A', Bytes.setAt (Bytes.zeros 60) 5 out, n) ∧
    out.length = n ∧ Xoodyak.decryptFullBlocks Xoodoo.Ref.permute12 (bytesOfLanes fun _ => 0) ((Bytes.zeros 60).drop 5) 50 =
      some (bytesOfLanes A', out, n) :=
  (C62_crypt _ _ (Bytes.zeros 60) 5 5 50 (by decide) (by decide) (by decide) (by decide) (by decide)).2

-- two blocks and a half are compressed, and as many are produced
example : ∃ k' x', compressFastLoop (fun _ => 7) (fun _ => 1) (fun _ => 0) (Bytes.zeros 120) 120 = some (k', x', 96) ∧
    Farfalle.eat serial 2 (bytesOfLanes fun _ => 1, bytesOfLanes fun _ => 0) (Bytes.zeros 120) = (bytesOfLanes k', bytesOfLanes x') :=
  C62_compress _ _ _ (Bytes.zeros 120) 120 (by decide) (by decide) (by decide)

-- 60 bytes and 5 bits are added
example : addIs (Bytes.zeros 70) ((List.range 70).map (BitVec.ofNat 8)) 485 =
    Farfalle.addIs (Bytes.zeros 70) ((List.range 70).map (BitVec.ofNat 8)) 485 :=
  C62_addIs _ _ _ (by decide) (by decide) (by decide)

end XoodooArm
