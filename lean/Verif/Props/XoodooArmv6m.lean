import Verif.Proofs.XoodooArmv6mBytes
import Verif.Props.XoodooArm

/-!
# C66: the ARMv6-M assembly of Xoodoo, Xoofff and Xoodyak

The lanes are in low registers, in high registers and on the stack, and the rounds are a loop over a table of constants.  The functions have code
for pointers that are multiples of 4 and for others; a word access at another address is a fault.  The permutations are Xoodoo[n], the byte
access functions are those of `doc/SnP-documentation.h`, and the functions for Xoofff and Xoodyak give what those of `XoodooArm` give, for which
see C62, whatever the alignment of the buffers, except for encryption and decryption (`C66_crypt_partial`, `C66_crypt_fault`).

The registers and the word on the stack before a call are arbitrary (`m`).
-/

namespace XoodooArm6

open Xoodoo (Lanes bytesOfLanes length_bytesOfLanes)
open Farfalle (Path PathOk Valid Matches)
open XoofffSimd (serial)

/-- C66: the permutation functions do to the bytes of the state what the reference functions do, for every number of rounds from 1 to 12; also
the one of Xoodyak, which has the state in registers. -/
theorem C66_permute (m : M) (A : Lanes) :
    (∀ nr, 1 ≤ nr → nr ≤ 12 → ∃ A', permuteNrounds m A nr = some A' ∧
      bytesOfLanes A' = Xoodoo.Ref.permuteNrounds nr (bytesOfLanes A)) ∧
    (∃ A', permute6 m A = some A' ∧ bytesOfLanes A' = Xoodoo.Ref.permute6 (bytesOfLanes A)) ∧
    (∃ A', permute12 m A = some A' ∧ bytesOfLanes A' = Xoodoo.Ref.permute12 (bytesOfLanes A)) ∧
    (∃ m', permute12Asm (load A m) = some m' ∧ bytesOfLanes (store m') = Xoodoo.Ref.permute12 (bytesOfLanes A)) := by
  have h : ∀ nr, 1 ≤ nr → nr ≤ 12 → ∃ A', permuteNrounds m A nr = some A' ∧
      bytesOfLanes A' = Xoodoo.Ref.permuteNrounds nr (bytesOfLanes A) := fun nr h1 h2 =>
    ⟨_, permuteNrounds_eq m A nr h1 h2, by rw [Xoodoo.Ref.permuteNrounds, Xoodoo.lanesOfBytes_bytesOfLanes]⟩
  refine ⟨h, h 6 (by decide) (by decide), h 12 (by decide) (by decide), ?_⟩
  obtain ⟨m', e1, e2⟩ := permute12Asm_eq (load A m)
  exact ⟨m', e1, by rw [e2, store_load, Xoodoo.Ref.permute12, Xoodoo.Ref.permuteNrounds, Xoodoo.lanesOfBytes_bytesOfLanes]⟩

/-- C66: the permutation functions are Xoodoo[n]. -/
theorem C66_permute_spec (m : M) (A : Lanes) (nr : Nat) (h1 : 1 ≤ nr) (h2 : nr ≤ 12) :
    ∃ A', permuteNrounds m A nr = some A' ∧ Bits.ofBytes (bytesOfLanes A') = Spec.Xoodoo.xoodoo nr (Bits.ofBytes (bytesOfLanes A)) := by
  obtain ⟨A', e1, e2⟩ := (C66_permute m A).1 nr h1 h2
  exact ⟨A', e1, by rw [e2, ((Xoodoo.C42_ref (bytesOfLanes A) (length_bytesOfLanes A)).1 nr h2).2]⟩

/-- C66 fails for `Xoodoo_Permute_Nrounds` with 0 rounds: a round is done with the 0 that ends the table, and the
word after the table is read. -/
theorem C66_zero (m : M) (A : Lanes) : permuteNrounds m A 0 = none := permute_zero m A

/-- C66: the byte access functions, with the state at a multiple of 4 and the buffers anywhere. -/
theorem C66_access (a0 a1 a2 : Nat) (junk : Byte) (ha : a0 % 4 = 0) :
    (access a0 a1 a2 junk).Implements 48 (fun s => s.length = 48) id where
  length := fun s hs => hs
  init := XoodooArm.C62_access.init
  addByte := XoodooArm.C62_access.addByte
  addBytes := by
    intro s d o len hs h hd
    exact ⟨_, addBytes_eq a0 a1 s d hs o len h hd, by rw [Bytes.length_xorAt]; exact hs, Bytes.updated_xorAt _ o len d hd⟩
  overwriteBytes := by
    intro s d o len hs h hd
    exact ⟨_, overwriteBytes_eq a0 a1 s d hs o len h hd, by rw [Bytes.length_setAt]; exact hs, Bytes.updated_setAt _ o len d hd⟩
  overwriteWithZeroes := by
    intro s n hs h
    exact ⟨_, overwriteWithZeroes_eq a0 ha s hs n h, by rw [Bytes.length_setAt]; exact hs, Bytes.updated_zeroes _ n⟩
  extractBytes := by
    intro s o len hs h
    have hl : (Bytes.slice s o len).length = len := Bytes.length_slice_of_le (by omega)
    have e := extractBytes_eq a0 a2 s (List.replicate len junk) hs o len h (by rw [List.length_replicate])
    rw [XoodooPlanes.setAt_front (by rw [hl, List.length_replicate]), hl, List.drop_replicate, Nat.sub_self, List.replicate_zero,
      List.append_nil] at e
    exact ⟨_, e, Bytes.slice_spec _ o len (by show o + len ≤ s.length; rw [hs]; exact h)⟩
  extractAndAddBytes := by
    intro s d o len hs h hd
    have hl : (Bytes.xor (d.take len) (Bytes.slice s o len)).length = len := by
      rw [Bytes.length_xor, List.length_take, Bytes.length_slice_of_le (by omega)]; omega
    have e := extractAndAddBytes_eq a0 a1 a2 s d (List.replicate len junk) hs o len h hd (by rw [List.length_replicate])
    rw [XoodooPlanes.setAt_front (by rw [hl, List.length_replicate]), hl, List.drop_replicate, Nat.sub_self, List.replicate_zero,
      List.append_nil] at e
    exact ⟨_, e, Bytes.xor_slice_spec _ d o len (by show o + len ≤ s.length; rw [hs]; exact h) hd⟩

/-- C66: the functions that extract write `length` bytes of the output buffer and no others. -/
theorem C66_extract (a0 a1 a2 : Nat) (s d out : Bytes) (hs : s.length = 48) (o len : Nat) (h : o + len ≤ 48) (ho : len ≤ out.length) :
    extractBytes a0 a2 s out o len = some (Bytes.slice s o len ++ out.drop len) ∧
    (len ≤ d.length →
      extractAndAddBytes a0 a1 a2 s d out o len = some (Bytes.xor (d.take len) (Bytes.slice s o len) ++ out.drop len)) := by
  have hl : (Bytes.slice s o len).length = len := Bytes.length_slice_of_le (by omega)
  refine ⟨?_, fun hd => ?_⟩
  · rw [extractBytes_eq a0 a2 s out hs o len h ho, XoodooPlanes.setAt_front (by omega), hl]
  · have hx : (Bytes.xor (d.take len) (Bytes.slice s o len)).length = len := by
      rw [Bytes.length_xor, List.length_take, hl]; omega
    rw [extractAndAddBytes_eq a0 a1 a2 s d out hs o len h hd ho, XoodooPlanes.setAt_front (by omega), hx]

/-! ### Xoodyak -/

/-- C66, `Xoodyak_AbsorbKeyedFullBlocks` and `Xoodyak_AbsorbHashFullBlocks`, with at least one block, anywhere: the state and the returned value
are those of the plain implementation, and nothing is read after the message. -/
theorem C66_absorb (m : M) (ad : Nat) (A : Lanes) (X : Bytes) (XLen : Nat) (hl : XLen ≤ X.length) (h32 : XLen < 2 ^ 32) :
    (44 ≤ XLen → ∃ A' n, absorbKeyedFullBlocks m ad A X XLen = some (A', n) ∧
      Xoodyak.absorbKeyedFullBlocks Xoodoo.Ref.permute12 (bytesOfLanes A) X XLen = some (bytesOfLanes A', n)) ∧
    (16 ≤ XLen → ∃ A' n, absorbHashFullBlocks m ad A X XLen = some (A', n) ∧
      Xoodyak.absorbHashFullBlocks Xoodoo.Ref.permute12 (bytesOfLanes A) X XLen = some (bytesOfLanes A', n)) := by
  rw [absorbKeyed_eq m (fun _ => 0), absorbHash_eq m (fun _ => 0)]
  exact XoodooArm.C62_absorb _ A X XLen hl h32

/-- C66, `Xoodyak_SqueezeKeyedFullBlocks` and `Xoodyak_SqueezeHashFullBlocks`: also the bytes written are those of the plain implementation,
and no others are modified. -/
theorem C66_squeeze (m : M) (ad : Nat) (A : Lanes) (Y : Bytes) (YLen : Nat) (hl : YLen ≤ Y.length) (h32 : YLen < 2 ^ 32) :
    (24 ≤ YLen → ∃ A' out n, squeezeKeyedFullBlocks m ad A Y YLen = some (A', Bytes.setAt Y 0 out, n) ∧ out.length = n ∧
      Xoodyak.squeezeKeyedFullBlocks Xoodoo.Ref.permute12 (bytesOfLanes A) YLen = some (bytesOfLanes A', out, n)) ∧
    (16 ≤ YLen → ∃ A' out n, squeezeHashFullBlocks m ad A Y YLen = some (A', Bytes.setAt Y 0 out, n) ∧ out.length = n ∧
      Xoodyak.squeezeHashFullBlocks Xoodoo.Ref.permute12 (bytesOfLanes A) YLen = some (bytesOfLanes A', out, n)) := by
  rw [squeezeKeyed_eq m (fun _ => 0), squeezeHash_eq m (fun _ => 0)]
  exact XoodooArm.C62_squeeze _ A Y YLen hl h32

/-- C66, `Xoodyak_EncryptFullBlocks` and `Xoodyak_DecryptFullBlocks` with the input at position `i` and the output at position `o` of the
memory, which is at `ad`: the state, the output and the returned value are those of the plain implementation, if both pointers are multiples of 4
or one of the two low bits is set in both.  The buffers may overlap if the output does not begin after the input.  Other pointers are missing:
for these see `C66_crypt_fault`. -/
theorem C66_crypt_partial (m : M) (ad : Nat) (A : Lanes) (mem : Bytes) (i o IOLen : Nat) (h : 24 ≤ IOLen) (hi : i + IOLen ≤ mem.length)
    (ho : o + IOLen ≤ mem.length) (h32 : IOLen < 2 ^ 32) (hov : o ≤ i ∨ i + IOLen ≤ o)
    (hal : ((ad + i) % 4 = 0 ∧ (ad + o) % 4 = 0) ∨ ((ad + o) % 4) &&& ((ad + i) % 4) ≠ 0) :
    (∃ A' out n, cryptFullBlocks false m ad A mem i o IOLen = some (A', Bytes.setAt mem o out, n) ∧ out.length = n ∧
      Xoodyak.encryptFullBlocks Xoodoo.Ref.permute12 (bytesOfLanes A) (mem.drop i) IOLen = some (bytesOfLanes A', out, n)) ∧
    (∃ A' out n, cryptFullBlocks true m ad A mem i o IOLen = some (A', Bytes.setAt mem o out, n) ∧ out.length = n ∧
      Xoodyak.decryptFullBlocks Xoodoo.Ref.permute12 (bytesOfLanes A) (mem.drop i) IOLen = some (bytesOfLanes A', out, n)) := by
  rw [crypt_eq false m (fun _ => 0) ad A mem i o IOLen hal h hi ho h32 hov, crypt_eq true m (fun _ => 0) ad A mem i o IOLen hal h hi ho h32 hov]
  exact XoodooArm.C62_crypt _ A mem i o IOLen h hi ho h32 hov

/-- C66 fails for all other pointers: the low bits of the pointers are combined with `ands`, so that the code for aligned pointers is chosen, and
the first load or the first store faults; in particular if one pointer only is a multiple of 4. -/
theorem C66_crypt_fault (decrypt : Bool) (m : M) (ad : Nat) (A : Lanes) (mem : Bytes) (i o IOLen : Nat)
    (hal : ¬ (((ad + i) % 4 = 0 ∧ (ad + o) % 4 = 0) ∨ ((ad + o) % 4) &&& ((ad + i) % 4) ≠ 0)) :
    cryptFullBlocks decrypt m ad A mem i o IOLen = none := crypt_fault decrypt m ad A mem i o IOLen hal

/-! ### Xoofff -/

/-- C66, `Xoofff_CompressFastLoop`, with the input anywhere: the new mask, the new accumulator and the number of bytes are those of processing
the blocks one after the other. -/
theorem C66_compress (m : M) (ad : Nat) (k x : Lanes) (input : Bytes) (len : Nat) (h1 : 48 ≤ len) (hl : len ≤ input.length) (h32 : len < 2 ^ 32) :
    ∃ k' x', compressFastLoop m ad k x input len = some (k', x', len / 48 * 48) ∧
      Farfalle.eat serial (len / 48) (bytesOfLanes k, bytesOfLanes x) input = (bytesOfLanes k', bytesOfLanes x') := by
  rw [compress_eq m (fun _ => 0)]
  exact XoodooArm.C62_compress _ k x input len h1 hl h32

/-- C66, `Xoofff_ExpandFastLoop`, with the output anywhere: the blocks are those of the serial code, and the bytes after them are not
modified. -/
theorem C66_expand (m : M) (ad : Nat) (y k : Lanes) (output : Bytes) (len : Nat) (h1 : 48 ≤ len) (hl : len ≤ output.length) (h32 : len < 2 ^ 32) :
    ∃ y', expandFastLoop m ad y k output len =
        some (y', Farfalle.gen serial (bytesOfLanes k) (len / 48) (bytesOfLanes y) ++ output.drop (len / 48 * 48), len / 48 * 48) ∧
      Nat.repeat (Farfalle.re serial) (len / 48) (bytesOfLanes y) = bytesOfLanes y' := by
  rw [expand_eq m (fun _ => 0)]
  exact XoodooArm.C62_expand _ y k output len h1 hl h32

/-- What is called at Xoofff.c:412-416 with this implementation, with the input at `ad`.  Lengths that do not fit in a `size_t` cannot occur; for
these the function is the contract. -/
def compress (m : M) (ad : Nat) (k x input : Bytes) : Bytes × Bytes × Nat :=
  if input.length < 2 ^ 32 then
    ((compressFastLoop m ad (Xoodoo.lanesOfBytes k) (Xoodoo.lanesOfBytes x) input input.length).map
      fun r => (bytesOfLanes r.1, bytesOfLanes r.2.1, r.2.2)).getD ([], [], 0)
  else ((Farfalle.eat serial (input.length / 48) (k, x) input).1, (Farfalle.eat serial (input.length / 48) (k, x) input).2,
    input.length / 48 * 48)

/-- What is called at Xoofff.c:601-605: the new `yAccu` and the bytes that count as written. -/
def expand (m : M) (ad : Nat) (y kRoll : Bytes) (len : Nat) : Bytes × Bytes :=
  if len < 2 ^ 32 then
    ((expandFastLoop m ad (Xoodoo.lanesOfBytes y) (Xoodoo.lanesOfBytes kRoll) (Bytes.zeros len) len).map
      fun r => (bytesOfLanes r.1, r.2.1.take r.2.2)).getD ([], [])
  else (Nat.repeat (Farfalle.re serial) (len / 48) y, Farfalle.gen serial kRoll (len / 48) y)

/-- The path of `Xoofff.c` with this implementation. -/
def path (m : M) (ad ad' : Nat) : Path := .fast 1 (compress m ad) (expand m ad')

theorem path_eq (m : M) (ad ad' : Nat) : path m ad ad' = XoodooArm.path (fun _ => 0) := by
  have h1 : compress m ad = XoodooArm.compress (fun _ => 0) := by
    funext k x input
    rw [compress, XoodooArm.compress, compress_eq m (fun _ => 0)]
  have h2 : expand m ad' = XoodooArm.expand (fun _ => 0) := by
    funext y k len
    rw [expand, XoodooArm.expand, expand_eq m (fun _ => 0)]
  rw [path, XoodooArm.path, h1, h2]

/-- C66: the functions for Xoofff meet the contract of a path. -/
theorem C66_path {permute : Bytes → Bytes} (hp : ∀ s : Bytes, s.length = 48 → (permute s).length = 48 ∧
    Bits.ofBytes (permute s) = Spec.Xoodoo.xoodoo 6 (Bits.ofBytes s)) {junk : Bytes} {paths : List Path} (m : M) (ad ad' : Nat) :
    PathOk (Xoofff.cfg permute junk paths) (path m ad ad') := by
  rw [path_eq]
  exact XoodooArm.C62_path hp _

/-- The permutation called by `Xoofff.c` with this implementation. -/
def permuteBytes (m : M) (s : Bytes) : Bytes := ((permute6 m (Xoodoo.lanesOfBytes s)).map bytesOfLanes).getD []

/-- C66: Xoofff with the functions and the permutation of this implementation is Farfalle with the parameters of Xoofff. -/
theorem C66_xoofff (m m' : M) (ad ad' : Nat) (junk : Bytes) (hj : junk.length = 48) :
    Valid (Xoofff.cfg (permuteBytes m) junk [path m' ad ad']) ∧ Matches (Xoofff.cfg (permuteBytes m) junk [path m' ad ad']) Spec.Xoofff.par := by
  have hp : ∀ s : Bytes, s.length = 48 → (permuteBytes m s).length = 48 ∧
      Bits.ofBytes (permuteBytes m s) = Spec.Xoodoo.xoodoo 6 (Bits.ofBytes s) := fun s hs => by
    obtain ⟨A', e1, e2⟩ := C66_permute_spec m (Xoodoo.lanesOfBytes s) 6 (by decide) (by decide)
    rw [Xoodoo.bytesOfLanes_lanesOfBytes s hs] at e2
    have e : permuteBytes m s = bytesOfLanes A' := by
      rw [permuteBytes, permute6, e1]
      rfl
    rw [e]
    exact ⟨length_bytesOfLanes _, e2⟩
  refine Farfalle.xoofff_ok _ hp junk hj _ fun p h => ?_
  rw [List.mem_singleton] at h
  subst h
  exact C66_path hp m' ad ad'

/-- C66, `Xoofff_AddIs`, with the buffers anywhere: the result is that of the function in C, and nothing outside of the buffers is accessed. -/
theorem C66_addIs (a0 a1 : Nat) (output input : Bytes) (bitLen : Nat) (ho : (bitLen + 7) / 8 ≤ output.length)
    (hi : (bitLen + 7) / 8 ≤ input.length) (h32 : bitLen < 2 ^ 32) : addIs a0 a1 output input bitLen = Farfalle.addIs output input bitLen :=
  addIs_eq a0 a1 output input bitLen ho hi h32

/-! ### Cases that meet the hypotheses -/

-- 100 bytes at an odd address: two blocks of 44 bytes are absorbed
example : ∃ A' n, absorbKeyedFullBlocks ⟨fun _ => 7, 5, 1⟩ 1001 (fun _ => 0) ((List.range 100).map (BitVec.ofNat 8)) 100 = some (A', n) ∧
    Xoodyak.absorbKeyedFullBlocks Xoodoo.Ref.permute12 (bytesOfLanes fun _ => 0) ((List.range 100).map (BitVec.ofNat 8)) 100 =
      some (bytesOfLanes A', n) :=
  (C66_absorb _ _ _ _ 100 (by decide) (by decide)).1 (by decide)

-- two blocks are decrypted in place at an odd address
example : ∃ A' out n, cryptFullBlocks true ⟨fun _ => 7, 5, 1⟩ 1000 (fun _ => 0) (Bytes.zeros 60) 5 5 50 =
      some (A', Bytes.setAt (Bytes.zeros 60) 5 out, n) ∧
    out.length = n ∧ Xoodyak.decryptFullBlocks Xoodoo.Ref.permute12 (bytesOfLanes fun _ => 0) ((Bytes.zeros 60).drop 5) 50 =
      some (bytesOfLanes A', out, n) :=
  (C66_crypt_partial _ _ _ (Bytes.zeros 60) 5 5 50 (by decide) (by decide) (by decide) (by decide) (by decide) (by decide)).2

-- a plaintext at an odd address is encrypted to a word-aligned buffer: an alignment fault
example : cryptFullBlocks false ⟨fun _ => 7, 5, 1⟩ 1000 (fun _ => 0) (Bytes.zeros 100) 5 52 48 = none :=
  C66_crypt_fault _ _ _ _ _ _ _ _ (by decide)

-- 31 bytes from offset 3 on are overwritten with data at an odd address
example : overwriteBytes 2000 3001 (Bytes.zeros 48) ((List.range 40).map (BitVec.ofNat 8)) 3 31 =
    some (Bytes.setAt (Bytes.zeros 48) 3 (((List.range 40).map (BitVec.ofNat 8)).take 31)) :=
  overwriteBytes_eq _ _ _ _ (by decide) _ _ (by decide) (by decide)

-- the hypothesis on the address of the state
example : (access 2000 3001 3002 0xff).Implements 48 (fun s => s.length = 48) id := C66_access _ _ _ _ (by decide)

-- two blocks and a half at an odd address are compressed
example : ∃ k' x', compressFastLoop ⟨fun _ => 7, 5, 1⟩ 1003 (fun _ => 1) (fun _ => 0) (Bytes.zeros 120) 120 = some (k', x', 96) ∧
    Farfalle.eat serial 2 (bytesOfLanes fun _ => 1, bytesOfLanes fun _ => 0) (Bytes.zeros 120) = (bytesOfLanes k', bytesOfLanes x') :=
  C66_compress _ _ _ _ (Bytes.zeros 120) 120 (by decide) (by decide) (by decide)

-- 60 bytes and 5 bits are added
example : addIs 1000 1004 (Bytes.zeros 70) ((List.range 70).map (BitVec.ofNat 8)) 485 =
    Farfalle.addIs (Bytes.zeros 70) ((List.range 70).map (BitVec.ofNat 8)) 485 :=
  C66_addIs _ _ _ _ _ (by decide) (by decide) (by decide)

end XoodooArm6
