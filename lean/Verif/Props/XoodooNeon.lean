import Verif.Proofs.XoodooNeonFull
import Verif.Props.XoodooArm

/-!
# C67: the ARMv7A assembly with NEON of Xoodoo, Xoofff and Xoodyak

A plane of the state is one register of four words; the rounds read the constants through a pointer, from a table that has them in pairs.
The permutations are Xoodoo[6] and Xoodoo[12] and read no constant outside of the tables, the functions for Xoofff are those of the serial
code and the full-block functions for Xoodyak give the state, the output and the returned value of `plain/Xoodyak-full-blocks.c`.

The registers before a call are arbitrary (`m`).  The functions on full blocks need at least one block, with which they are called.
-/

namespace XoodooNeon

open Xoodoo (Lanes bytesOfLanes length_bytesOfLanes)
open Farfalle (Path PathOk Valid Matches)
open XoofffSimd (serial)
open XoodooPlanes (B)
open XoodooArm (sub32 sub32_eq)

/-- C67: the permutation functions do to the bytes of the state what the reference functions do, also the one of Xoodyak, which has the
state in registers and leaves the registers `q6` to `q15` as they are. -/
theorem C67_permute (m : M) (A : Lanes) :
    (permute6 m A).map bytesOfLanes = some (Xoodoo.Ref.permute6 (bytesOfLanes A)) ∧
    (permute12 m A).map bytesOfLanes = some (Xoodoo.Ref.permute12 (bytesOfLanes A)) ∧
    ∃ m', permute12Asm (ldState A m) = some m' ∧ (∀ k, 6 ≤ k → m'.q k = m.q k) ∧
      bytesOfLanes (stState m') = Xoodoo.Ref.permute12 (bytesOfLanes A) := by
  refine ⟨?_, ?_, ?_⟩
  · rw [permute6_eq, Xoodoo.Ref.permute6, Xoodoo.Ref.permuteNrounds, Xoodoo.lanesOfBytes_bytesOfLanes]; rfl
  · rw [permute12_eq, Xoodoo.Ref.permute12, Xoodoo.Ref.permuteNrounds, Xoodoo.lanesOfBytes_bytesOfLanes]; rfl
  · obtain ⟨m', e1, e2, e3⟩ := B_permute12Asm (ldState A m)
    refine ⟨m', e1, fun k hk => (e2 k hk).trans ?_, ?_⟩
    · obtain ⟨j, rfl⟩ : ∃ j, k = j + 6 := ⟨k - 6, by omega⟩
      rfl
    · rw [stState_eq, ← B_ldState A m]; exact e3

/-- C67: the permutation functions are Xoodoo[6] and Xoodoo[12]. -/
theorem C67_permute_spec (m : M) (A : Lanes) :
    (permute6 m A).map (fun A' => Bits.ofBytes (bytesOfLanes A')) = some (Spec.Xoodoo.xoodoo 6 (Bits.ofBytes (bytesOfLanes A))) ∧
    (permute12 m A).map (fun A' => Bits.ofBytes (bytesOfLanes A')) = some (Spec.Xoodoo.xoodoo 12 (Bits.ofBytes (bytesOfLanes A))) := by
  obtain ⟨h1, h2, _⟩ := C67_permute m A
  have hr := (Xoodoo.C42_ref (bytesOfLanes A) (length_bytesOfLanes A)).1
  have e1 := congrArg (Option.map Bits.ofBytes) h1
  have e2 := congrArg (Option.map Bits.ofBytes) h2
  rw [Option.map_map, Option.map_some, Xoodoo.Ref.permute6, (hr 6 (by decide)).2] at e1
  rw [Option.map_map, Option.map_some, Xoodoo.Ref.permute12, (hr 12 (by decide)).2] at e2
  exact ⟨e1, e2⟩

/-- C67: the byte access functions, the instructions of which are those of `C62_access` except for the initialisation. -/
theorem C67_access (m : M) : (access m).Implements 48 (fun s => s.length = 48) id where
  length := fun s hs => hs
  init := by
    have : (access m).init = List.replicate 48 0 := by
      have e : initState m = fun _ => 0 := by funext i; fin_cases i <;> rfl
      show bytesOfLanes (initState m) = _
      rw [e]
      decide +kernel
    rw [this]
    exact ⟨List.length_replicate, rfl⟩
  addByte := XoodooArm.C62_access.addByte
  addBytes := XoodooArm.C62_access.addBytes
  overwriteBytes := XoodooArm.C62_access.overwriteBytes
  overwriteWithZeroes := XoodooArm.C62_access.overwriteWithZeroes
  extractBytes := XoodooArm.C62_access.extractBytes
  extractAndAddBytes := XoodooArm.C62_access.extractAndAddBytes

/-! ### Xoodyak -/

/-- C67, `Xoodyak_AbsorbKeyedFullBlocks` and `Xoodyak_AbsorbHashFullBlocks`, with at least one block: the state and the returned value are
those of the plain implementation, and nothing is read after the message. -/
theorem C67_absorb (m : M) (A : Lanes) (X : Bytes) (XLen : Nat) (hl : XLen ≤ X.length) (h32 : XLen < 2 ^ 32) :
    (44 ≤ XLen → ∃ A' n, absorbKeyedFullBlocks m A X XLen = some (A', n) ∧
      Xoodyak.absorbKeyedFullBlocks Xoodoo.Ref.permute12 (bytesOfLanes A) X XLen = some (bytesOfLanes A', n)) ∧
    (16 ≤ XLen → ∃ A' n, absorbHashFullBlocks m A X XLen = some (A', n) ∧
      Xoodyak.absorbHashFullBlocks Xoodoo.Ref.permute12 (bytesOfLanes A) X XLen = some (bytesOfLanes A', n)) := by
  refine ⟨fun h => ?_, fun h => ?_⟩
  · obtain ⟨m', X', n, e1, e2, e3⟩ := absorbLoop_ok (fun v => v 3 = 1) X (addKeyed X) 44 (by decide) (by decide)
      (fun p m hI hp => addKeyed_ok X p m hI hp) (XLen + 1) (2 ^ 32) (ldState A (vmovImmD 13 1 m)) 0 XLen rfl h (by omega) h32 (by omega) h32
    rw [B_ldState, List.drop_zero] at e1
    refine ⟨stState m', XLen - n, ?_, ?_⟩
    · rw [absorbKeyedFullBlocks, sub32_eq h h32, e2, Option.bind_eq_bind, Option.bind_some]
      dsimp only
      rw [Nat.zero_add, Nat.sub_zero]
    · rw [Xoodyak.absorbKeyedFullBlocks, show Xoodyak.Rkin = 44 from rfl, e1, stState_eq]; rfl
  · obtain ⟨m', X', n, e1, e2, e3⟩ := absorbLoop_ok (fun v => v 0 = 1 ∧ v 1 = 0) X (addHash X) 16 (by decide) (by decide)
      (fun p m hI hp => addHash_ok X p m hI hp) (XLen + 1) (2 ^ 32) (ldState A (vshr32D 12 12 (vmovImmD 12 1 m))) 0 XLen ⟨rfl, rfl⟩ h (by omega)
      h32 (by omega) h32
    rw [B_ldState, List.drop_zero] at e1
    refine ⟨stState m', XLen - n, ?_, ?_⟩
    · rw [absorbHashFullBlocks, sub32_eq h h32, e2, Option.bind_eq_bind, Option.bind_some]
      dsimp only
      rw [Nat.zero_add, Nat.sub_zero]
    · rw [Xoodyak.absorbHashFullBlocks, show Xoodyak.Rhash = 16 from rfl, e1, stState_eq]; rfl

/-- C67, `Xoodyak_SqueezeKeyedFullBlocks` and `Xoodyak_SqueezeHashFullBlocks`: also the bytes written are those of the plain implementation,
and no others are modified. -/
theorem C67_squeeze (m : M) (A : Lanes) (Y : Bytes) (YLen : Nat) (hl : YLen ≤ Y.length) (h32 : YLen < 2 ^ 32) :
    (24 ≤ YLen → ∃ A' out n, squeezeKeyedFullBlocks m A Y YLen = some (A', Bytes.setAt Y 0 out, n) ∧ out.length = n ∧
      Xoodyak.squeezeKeyedFullBlocks Xoodoo.Ref.permute12 (bytesOfLanes A) YLen = some (bytesOfLanes A', out, n)) ∧
    (16 ≤ YLen → ∃ A' out n, squeezeHashFullBlocks m A Y YLen = some (A', Bytes.setAt Y 0 out, n) ∧ out.length = n ∧
      Xoodyak.squeezeHashFullBlocks Xoodoo.Ref.permute12 (bytesOfLanes A) YLen = some (bytesOfLanes A', out, n)) := by
  refine ⟨fun h => ?_, fun h => ?_⟩
  · obtain ⟨m', out, n, e1, e2, e3, e4⟩ := squeezeLoop_ok storeKeyed 24 (by decide) (by decide) (fun m Y o ho => storeKeyed_ok m Y o ho)
      (YLen + 1) (2 ^ 32) (ldState A (vshr32D 12 12 (vmovImmD 12 1 m))) Y 0 YLen ⟨rfl, rfl⟩ h (by omega) h32 (by omega) h32
    rw [B_ldState] at e1
    refine ⟨stState m', out, YLen - n, ?_, e4, ?_⟩
    · rw [squeezeKeyedFullBlocks, sub32_eq h h32, e2, Option.bind_eq_bind, Option.bind_some]
      dsimp only
      rw [Nat.zero_add, Nat.sub_zero]
    · rw [Xoodyak.squeezeKeyedFullBlocks, show Xoodyak.Rkout = 24 from rfl, e1, stState_eq]; rfl
  · obtain ⟨m', out, n, e1, e2, e3, e4⟩ := squeezeLoop_ok storeHash 16 (by decide) (by decide) (fun m Y o ho => storeHash_ok m Y o ho)
      (YLen + 1) (2 ^ 32) (ldState A (vshr32D 12 12 (vmovImmD 12 1 m))) Y 0 YLen ⟨rfl, rfl⟩ h (by omega) h32 (by omega) h32
    rw [B_ldState] at e1
    refine ⟨stState m', out, YLen - n, ?_, e4, ?_⟩
    · rw [squeezeHashFullBlocks, sub32_eq h h32, e2, Option.bind_eq_bind, Option.bind_some]
      dsimp only
      rw [Nat.zero_add, Nat.sub_zero]
    · rw [Xoodyak.squeezeHashFullBlocks, show Xoodyak.Rhash = 16 from rfl, e1, stState_eq]; rfl

theorem crypt_ok (dec : Bool) (m : M) (A : Lanes) (mem : Bytes) (i o IOLen : Nat) (h : 24 ≤ IOLen) (hi : i + IOLen ≤ mem.length)
    (ho : o + IOLen ≤ mem.length) (h32 : IOLen < 2 ^ 32) (hov : o ≤ i ∨ i + IOLen ≤ o) :
    ∃ A' out n, cryptFullBlocks dec m A mem i o IOLen = some (A', Bytes.setAt mem o out, IOLen - n) ∧ out.length = IOLen - n ∧
      Xoodyak.cryptFull Xoodoo.Ref.permute12 dec (IOLen + 1) (bytesOfLanes A) (mem.drop i) IOLen = some (bytesOfLanes A', out, n) := by
  obtain ⟨m', out, n, e1, e2, e3, e4⟩ := cryptLoop_ok dec (IOLen + 1) (2 ^ 32) (ldState A (vshr32D 13 13 (vmovImmD 13 1 m))) mem (mem.drop i)
    i o IOLen ⟨rfl, rfl⟩ h hi ho h32 (by omega) h32 hov rfl (by rw [List.length_drop]; omega)
  rw [B_ldState] at e1
  refine ⟨stState m', out, n, ?_, e4, by rw [e1, stState_eq]; rfl⟩
  rw [cryptFullBlocks, sub32_eq h h32, e2, Option.bind_eq_bind, Option.bind_some]
  dsimp only
  rw [Nat.add_sub_cancel_left]

/-- C67, `Xoodyak_EncryptFullBlocks` and `Xoodyak_DecryptFullBlocks` with the input at position `i` and the output at position `o` of the
memory: the state, the output and the returned value are those of the plain implementation.  The buffers may overlap if the output does not
begin after the input; in particular they may be the same, also for decryption, where the intrinsics of `C50_decrypt_inplace_false` fail. -/
theorem C67_crypt (m : M) (A : Lanes) (mem : Bytes) (i o IOLen : Nat) (h : 24 ≤ IOLen) (hi : i + IOLen ≤ mem.length)
    (ho : o + IOLen ≤ mem.length) (h32 : IOLen < 2 ^ 32) (hov : o ≤ i ∨ i + IOLen ≤ o) :
    (∃ A' out n, cryptFullBlocks false m A mem i o IOLen = some (A', Bytes.setAt mem o out, n) ∧ out.length = n ∧
      Xoodyak.encryptFullBlocks Xoodoo.Ref.permute12 (bytesOfLanes A) (mem.drop i) IOLen = some (bytesOfLanes A', out, n)) ∧
    (∃ A' out n, cryptFullBlocks true m A mem i o IOLen = some (A', Bytes.setAt mem o out, n) ∧ out.length = n ∧
      Xoodyak.decryptFullBlocks Xoodoo.Ref.permute12 (bytesOfLanes A) (mem.drop i) IOLen = some (bytesOfLanes A', out, n)) := by
  refine ⟨?_, ?_⟩
  · obtain ⟨A', out, n, e1, e2, e3⟩ := crypt_ok false m A mem i o IOLen h hi ho h32 hov
    refine ⟨A', out, IOLen - n, e1, e2, ?_⟩
    rw [Xoodyak.encryptFullBlocks]
    change (Xoodyak.cryptFull Xoodoo.Ref.permute12 false (IOLen + 1) (bytesOfLanes A) (mem.drop i) IOLen).bind _ = _
    rw [e3]; rfl
  · obtain ⟨A', out, n, e1, e2, e3⟩ := crypt_ok true m A mem i o IOLen h hi ho h32 hov
    refine ⟨A', out, IOLen - n, e1, e2, ?_⟩
    rw [Xoodyak.decryptFullBlocks]
    change (Xoodyak.cryptFull Xoodoo.Ref.permute12 true (IOLen + 1) (bytesOfLanes A) (mem.drop i) IOLen).bind _ = _
    rw [e3]; rfl

/-! ### Xoofff -/

theorem B_ld3 (x k : Lanes) (m : M) :
    B (at3' (ld3 x 9 (ld3 k 6 m)) 6) = bytesOfLanes k ∧ B (at3' (ld3 x 9 (ld3 k 6 m)) 9) = bytesOfLanes x := by
  constructor <;> refine congrArg bytesOfLanes (funext fun i => ?_) <;> fin_cases i <;> rfl

theorem words_at (m : M) (d : Nat) : bytesOfLanes (words (m.q d) (m.q (d + 1)) (m.q (d + 2))) = B (at3' m d) := by rw [words_eq]; rfl

/-- C67, `Xoofff_CompressFastLoop`: the new mask, the new accumulator and the number of bytes are those of processing the blocks one after
the other. -/
theorem C67_compress (m : M) (k x : Lanes) (input : Bytes) (len : Nat) (h1 : 48 ≤ len) (hl : len ≤ input.length) (h32 : len < 2 ^ 32) :
    ∃ k' x', compressFastLoop m k x input len = some (k', x', len / 48 * 48) ∧
      Farfalle.eat serial (len / 48) (bytesOfLanes k, bytesOfLanes x) input = (bytesOfLanes k', bytesOfLanes x') := by
  obtain ⟨m', e1, e2⟩ := compressLoop_ok (C := serial) rfl rfl rfl input (2 ^ 32) (ld3 x 9 (ld3 k 6 m)) 0 len h1 (by omega) h32 h32
  rw [(B_ld3 x k m).1, (B_ld3 x k m).2, List.drop_zero] at e2
  rw [Nat.zero_add] at e1
  refine ⟨_, _, by rw [compressFastLoop, sub32_eq h1 h32, e1, Option.bind_eq_bind, Option.bind_some], ?_⟩
  rw [e2]
  exact Prod.ext (words_at m' 6).symm (words_at m' 9).symm

/-- C67, `Xoofff_ExpandFastLoop`: the blocks are those of the serial code, and the bytes after them are not modified. -/
theorem C67_expand (m : M) (y k : Lanes) (output : Bytes) (len : Nat) (h1 : 48 ≤ len) (hl : len ≤ output.length) (h32 : len < 2 ^ 32) :
    ∃ y', expandFastLoop m y k output len =
        some (y', Farfalle.gen serial (bytesOfLanes k) (len / 48) (bytesOfLanes y) ++ output.drop (len / 48 * 48), len / 48 * 48) ∧
      Nat.repeat (Farfalle.re serial) (len / 48) (bytesOfLanes y) = bytesOfLanes y' := by
  obtain ⟨m', e1, e2⟩ := expandLoop_ok (C := serial) rfl rfl (2 ^ 32) (ld3 y 9 (ld3 k 6 m)) output 0 len h1 (by omega) h32 h32
  rw [(B_ld3 y k m).2] at e1 e2
  rw [(B_ld3 y k m).1] at e1
  have hg := XoofffSimd.length_gen6 (C := serial) rfl (length_bytesOfLanes k) (len / 48) (bytesOfLanes y)
  rw [Nat.zero_add, XoodooPlanes.setAt_front (by omega), hg, show 48 * (len / 48) = len / 48 * 48 by omega] at e1
  exact ⟨_, by rw [expandFastLoop, sub32_eq h1 h32, e1, Option.bind_eq_bind, Option.bind_some], e2.trans (words_at m' 9).symm⟩

/-- What is called at Xoofff.c:412-416 with this implementation.  Lengths that do not fit in a `size_t` cannot occur; for these the function is
the contract. -/
def compress (m₀ : M) (k x m : Bytes) : Bytes × Bytes × Nat :=
  if m.length < 2 ^ 32 then
    ((compressFastLoop m₀ (Xoodoo.lanesOfBytes k) (Xoodoo.lanesOfBytes x) m m.length).map
      fun r => (bytesOfLanes r.1, bytesOfLanes r.2.1, r.2.2)).getD ([], [], 0)
  else ((Farfalle.eat serial (m.length / 48) (k, x) m).1, (Farfalle.eat serial (m.length / 48) (k, x) m).2, m.length / 48 * 48)

/-- What is called at Xoofff.c:601-605: the new `yAccu` and the bytes that count as written. -/
def expand (m₀ : M) (y kRoll : Bytes) (len : Nat) : Bytes × Bytes :=
  if len < 2 ^ 32 then
    ((expandFastLoop m₀ (Xoodoo.lanesOfBytes y) (Xoodoo.lanesOfBytes kRoll) (Bytes.zeros len) len).map
      fun r => (bytesOfLanes r.1, r.2.1.take r.2.2)).getD ([], [])
  else (Nat.repeat (Farfalle.re serial) (len / 48) y, Farfalle.gen serial kRoll (len / 48) y)

/-- The path of `Xoofff.c` with this implementation. -/
def path (m₀ : M) : Path := .fast 1 (compress m₀) (expand m₀)

theorem compress_eq (m₀ : M) (k x m : Bytes) (hk : k.length = 48) (hx : x.length = 48) (h1 : 48 ≤ m.length) : compress m₀ k x m =
    ((Farfalle.eat serial (m.length / 48) (k, x) m).1, (Farfalle.eat serial (m.length / 48) (k, x) m).2, m.length / 48 * 48) := by
  unfold compress
  split
  · rename_i h
    obtain ⟨k', x', e1, e2⟩ := C67_compress m₀ (Xoodoo.lanesOfBytes k) (Xoodoo.lanesOfBytes x) m m.length h1 (Nat.le_refl _) h
    rw [Xoodoo.bytesOfLanes_lanesOfBytes k hk, Xoodoo.bytesOfLanes_lanesOfBytes x hx] at e2
    rw [e1, e2]; rfl
  · rfl

theorem expand_eq (m₀ : M) (y kRoll : Bytes) (len : Nat) (hk : kRoll.length = 48) (hy : y.length = 48) (h1 : 48 ≤ len) :
    expand m₀ y kRoll len = (Nat.repeat (Farfalle.re serial) (len / 48) y, Farfalle.gen serial kRoll (len / 48) y) := by
  unfold expand
  split
  · rename_i h
    obtain ⟨y', e1, e2⟩ := C67_expand m₀ (Xoodoo.lanesOfBytes y) (Xoodoo.lanesOfBytes kRoll) (Bytes.zeros len) len h1
      (by rw [Bytes.length_zeros]) h
    rw [Xoodoo.bytesOfLanes_lanesOfBytes y hy] at e1 e2
    rw [Xoodoo.bytesOfLanes_lanesOfBytes kRoll hk] at e1
    have hg := XoofffSimd.length_gen6 (C := serial) rfl hk (len / 48) y
    rw [e1, e2]
    show (_, _) = _
    rw [List.take_left' (by rw [hg]; exact Nat.mul_comm _ _)]
  · rfl

section

variable {permute : Bytes → Bytes} (hp : ∀ s : Bytes, s.length = 48 → (permute s).length = 48 ∧
    Bits.ofBytes (permute s) = Spec.Xoodoo.xoodoo 6 (Bits.ofBytes s)) {junk : Bytes} {paths : List Path}

include hp

/-- C67: the functions for Xoofff meet the contract of a path. -/
theorem C67_path (m₀ : M) : PathOk (Xoofff.cfg permute junk paths) (path m₀) := by
  refine ⟨Nat.one_pos, fun k x m hk hx hm => ?_, fun y kRoll len hy hk hl => ?_⟩
  · change k.length = 48 at hk
    change x.length = 48 at hx
    change 48 ≤ m.length at hm
    show compress m₀ k x m = ((Farfalle.eat _ (m.length / 48 * 1) (k, x) m).1,
      (Farfalle.eat _ (m.length / 48 * 1) (k, x) m).2, m.length / 48 * 1 * 48)
    rw [Nat.mul_one, compress_eq m₀ k x m hk hx hm, XoofffSimd.eat_eq hp _ _ _ _ hk (by omega)]
  · change y.length = 48 at hy
    change kRoll.length = 48 at hk
    change 48 ≤ len at hl
    show expand m₀ y kRoll len = (Nat.repeat (Farfalle.re serial) (len / 48 * 1) y, Farfalle.gen _ kRoll (len / 48 * 1) y)
    rw [Nat.mul_one, expand_eq m₀ y kRoll len hk hy hl, XoofffSimd.gen_eq hp _ _ _ hy]

end

/-- C67: Xoofff with the functions and the permutation of this implementation is Farfalle with the parameters of Xoofff. -/
theorem C67_xoofff (m m' : M) (junk : Bytes) (hj : junk.length = 48) :
    Valid (Xoofff.cfg (fun s => ((permute6 m (Xoodoo.lanesOfBytes s)).map bytesOfLanes).getD []) junk [path m']) ∧
    Matches (Xoofff.cfg (fun s => ((permute6 m (Xoodoo.lanesOfBytes s)).map bytesOfLanes).getD []) junk [path m']) Spec.Xoofff.par := by
  have hp : ∀ s : Bytes, s.length = 48 → (((permute6 m (Xoodoo.lanesOfBytes s)).map bytesOfLanes).getD []).length = 48 ∧
      Bits.ofBytes (((permute6 m (Xoodoo.lanesOfBytes s)).map bytesOfLanes).getD []) = Spec.Xoodoo.xoodoo 6 (Bits.ofBytes s) := fun s hs => by
    have hr := (Xoodoo.C42_ref s hs).1
    rw [(C67_permute m _).1, Option.getD_some, Xoodoo.bytesOfLanes_lanesOfBytes s hs]
    exact ⟨length_bytesOfLanes _, by rw [Xoodoo.Ref.permute6, (hr 6 (by decide)).2]⟩
  refine Farfalle.xoofff_ok _ hp junk hj _ fun p h => ?_
  rw [List.mem_singleton] at h
  subst h
  exact C67_path hp m'

/-- C67, `Xoofff_AddIs`: the result is that of the function in C, and nothing outside of the buffers is accessed. -/
theorem C67_addIs (m : M) (output input : Bytes) (bitLen : Nat) (ho : (bitLen + 7) / 8 ≤ output.length) (hi : (bitLen + 7) / 8 ≤ input.length)
    (h32 : bitLen < 2 ^ 32) : addIs m output input bitLen = Farfalle.addIs output input bitLen :=
  addIs_eq m output input bitLen ho hi h32

/-! ### Cases that meet the hypotheses -/

/-- Registers with some contents. -/
def someRegs : M := ⟨fun _ _ => 7, 3⟩

-- 100 bytes: two blocks of 44 bytes are absorbed
example : ∃ A' n, absorbKeyedFullBlocks someRegs (fun _ => 0) ((List.range 100).map (BitVec.ofNat 8)) 100 = some (A', n) ∧
    Xoodyak.absorbKeyedFullBlocks Xoodoo.Ref.permute12 (bytesOfLanes fun _ => 0) ((List.range 100).map (BitVec.ofNat 8)) 100 =
      some (bytesOfLanes A', n) :=
  (C67_absorb _ _ _ 100 (by decide) (by decide)).1 (by decide)

-- two blocks are squeezed to a buffer of 60 bytes
example : ∃ A' out n, squeezeKeyedFullBlocks someRegs (fun _ => 0) (Bytes.zeros 60) 60 = some (A', Bytes.setAt (Bytes.zeros 60) 0 out, n) ∧
    out.length = n ∧ Xoodyak.squeezeKeyedFullBlocks Xoodoo.Ref.permute12 (bytesOfLanes fun _ => 0) 60 = some (bytesOfLanes A', out, n) :=
  (C67_squeeze _ _ (Bytes.zeros 60) 60 (by decide) (by decide)).1 (by decide)

-- two blocks are decrypted in place
example : ∃ A' out n, cryptFullBlocks true someRegs (fun _ => 0) (Bytes.zeros 60) 5 5 50 = some (A', Bytes.setAt (Bytes.zeros 60) 5 out, n) ∧
    out.length = n ∧ Xoodyak.decryptFullBlocks Xoodoo.Ref.permute12 (bytesOfLanes fun _ => 0) ((Bytes.zeros 60).drop 5) 50 =
      some (bytesOfLanes A', out, n) :=
  (C67_crypt _ _ (Bytes.zeros 60) 5 5 50 (by decide) (by decide) (by decide) (by decide) (by decide)).2

-- two blocks and a half are compressed
example : ∃ k' x', compressFastLoop someRegs (fun _ => 1) (fun _ => 0) (Bytes.zeros 120) 120 = some (k', x', 96) ∧
    Farfalle.eat serial 2 (bytesOfLanes fun _ => 1, bytesOfLanes fun _ => 0) (Bytes.zeros 120) = (bytesOfLanes k', bytesOfLanes x') :=
  C67_compress _ _ _ (Bytes.zeros 120) 120 (by decide) (by decide) (by decide)

-- 60 bytes and 5 bits are added
example : addIs someRegs (Bytes.zeros 70) ((List.range 70).map (BitVec.ofNat 8)) 485 =
    Farfalle.addIs (Bytes.zeros 70) ((List.range 70).map (BitVec.ofNat 8)) 485 :=
  C67_addIs _ _ _ _ (by decide) (by decide) (by decide)

end XoodooNeon
