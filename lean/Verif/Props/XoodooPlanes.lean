import Verif.Proofs.XoodooPlanesXoofff
import Verif.Props.Xoodoo
import Verif.Props.XoofffSimd

/-!
# C50: the SIMD implementations of a single state of Xoodoo

The implementations with 128-bit vectors (SSE2 to SSE4.1, with and without the XOP instructions) and with AVX-512 keep the three planes of
the state in three registers.  Their permutations are Xoodoo[n], their byte access functions are those of `doc/SnP-documentation.h`, their
full-block functions for Xoodyak give the state, the output and the returned value of `plain/Xoodyak-full-blocks.c`, and their functions for
Xoofff are those of the serial code.

The full-block functions for decryption need input and output buffers that do not overlap: `C50_decrypt_inplace_false`.
-/

namespace XoodooPlanes

open Xoodoo (Lanes bytesOfLanes length_bytesOfLanes)
open Farfalle (Path PathOk Valid Matches)

/-- C50: the permutation functions do to the bytes of the state what the reference functions do; for `Xoodoo_Permute_Nrounds` with every
number of rounds. -/
theorem C50_permute (isa : Isa) (A : Lanes) :
    (∀ nr, bytesOfLanes (permuteNrounds isa nr A) = Xoodoo.Ref.permuteNrounds nr (bytesOfLanes A)) ∧
    bytesOfLanes (permute6 isa A) = Xoodoo.Ref.permute6 (bytesOfLanes A) ∧
    bytesOfLanes (permute12 isa A) = Xoodoo.Ref.permute12 (bytesOfLanes A) := by
  refine ⟨fun nr => ?_, ?_, ?_⟩
  · rw [permuteNrounds_eq, Xoodoo.Ref.permuteNrounds, Xoodoo.lanesOfBytes_bytesOfLanes]
  · rw [permute6_eq, Xoodoo.Ref.permute6, Xoodoo.Ref.permuteNrounds, Xoodoo.lanesOfBytes_bytesOfLanes]
  · rw [permute12_eq, Xoodoo.Ref.permute12, Xoodoo.Ref.permuteNrounds, Xoodoo.lanesOfBytes_bytesOfLanes]

/-- C50: the permutation functions are Xoodoo[n]. -/
theorem C50_permute_spec (isa : Isa) (A : Lanes) :
    (∀ nr, nr ≤ 12 → Bits.ofBytes (bytesOfLanes (permuteNrounds isa nr A)) = Spec.Xoodoo.xoodoo nr (Bits.ofBytes (bytesOfLanes A))) ∧
    Bits.ofBytes (bytesOfLanes (permute6 isa A)) = Spec.Xoodoo.xoodoo 6 (Bits.ofBytes (bytesOfLanes A)) ∧
    Bits.ofBytes (bytesOfLanes (permute12 isa A)) = Spec.Xoodoo.xoodoo 12 (Bits.ofBytes (bytesOfLanes A)) := by
  obtain ⟨h1, h2, h3⟩ := C50_permute isa A
  have hr := (Xoodoo.C42_ref (bytesOfLanes A) (length_bytesOfLanes A)).1
  refine ⟨fun nr h => ?_, ?_, ?_⟩
  · rw [h1, (hr nr h).2]
  · rw [h2, Xoodoo.Ref.permute6, (hr 6 (by decide)).2]
  · rw [h3, Xoodoo.Ref.permute12, (hr 12 (by decide)).2]

/-- C50: the byte access functions. -/
theorem C50_access : access.Implements 48 (fun _ => True) bytesOfLanes where
  length := Xoodoo.C40_opt.length
  init := Xoodoo.C40_opt.init
  addByte := Xoodoo.C40_opt.addByte
  addBytes := by
    intro A d o len _ h hd
    obtain ⟨A', e1, e2⟩ := addBytes_eq A d o len h hd
    exact ⟨A', e1, trivial, by rw [e2]; exact Bytes.updated_xorAt _ _ _ _ hd⟩
  overwriteBytes := by
    intro A d o len _ h hd
    obtain ⟨A', e1, e2⟩ := overwriteBytes_eq A d o len h hd
    exact ⟨A', e1, trivial, by rw [e2]; exact Bytes.updated_setAt _ _ _ _ hd⟩
  overwriteWithZeroes := Xoodoo.C40_opt.overwriteWithZeroes
  extractBytes := Xoodoo.C40_opt.extractBytes
  extractAndAddBytes := by
    intro A d o len _ h hd
    exact ⟨_, extractAndAddBytes_eq A d o len h hd,
      Bytes.xor_slice_spec (bytesOfLanes A) d o len (by rw [length_bytesOfLanes]; exact h) hd⟩

/-! ### Xoodyak -/

theorem B_state2Vars (A : Lanes) : B (state2Vars A) = bytesOfLanes A := by rw [B, vars2State_state2Vars]

/-- C50, `Xoodyak_AbsorbKeyedFullBlocks` and `Xoodyak_AbsorbHashFullBlocks`, when they are called (with at least one block): the state and the
returned value are those of the plain implementation, and nothing is read after the message. -/
theorem C50_absorb (isa : Isa) (A : Lanes) (X : Bytes) (XLen : Nat) (hl : XLen ≤ X.length) (h64 : XLen < 2 ^ 64) :
    (44 ≤ XLen → ∃ A' n, absorbKeyedFullBlocks isa A X XLen = some (A', n) ∧
      Xoodyak.absorbKeyedFullBlocks Xoodoo.Ref.permute12 (bytesOfLanes A) X XLen = some (bytesOfLanes A', n)) ∧
    (16 ≤ XLen → ∃ A' n, absorbHashFullBlocks isa A X XLen = some (A', n) ∧
      Xoodyak.absorbHashFullBlocks Xoodoo.Ref.permute12 (bytesOfLanes A) X XLen = some (bytesOfLanes A', n)) := by
  refine ⟨fun h => ?_, fun h => ?_⟩
  · obtain ⟨s', X', n, e1, e2, e3⟩ := absorbLoop_ok isa 44 (by omega) addKeyed addKeyed_ok (XLen + 1) (state2Vars A) X XLen (by omega) h hl h64
      (by omega)
    rw [B_state2Vars] at e1
    refine ⟨vars2State s', XLen - n, ?_, ?_⟩
    · rw [absorbKeyedFullBlocks, e2, Option.bind_eq_bind, Option.bind_some, sub64_eq e3 h64]
    · rw [Xoodyak.absorbKeyedFullBlocks, show Xoodyak.Rkin = 44 from rfl, e1]; rfl
  · obtain ⟨s', X', n, e1, e2, e3⟩ := absorbLoop_ok isa 16 (by omega) addHash addHash_ok (XLen + 1) (state2Vars A) X XLen (by omega) h hl h64
      (by omega)
    rw [B_state2Vars] at e1
    refine ⟨vars2State s', XLen - n, ?_, ?_⟩
    · rw [absorbHashFullBlocks, e2, Option.bind_eq_bind, Option.bind_some, sub64_eq e3 h64]
    · rw [Xoodyak.absorbHashFullBlocks, show Xoodyak.Rhash = 16 from rfl, e1]; rfl

/-- C50, `Xoodyak_SqueezeKeyedFullBlocks` and `Xoodyak_SqueezeHashFullBlocks`, writing at position `o` of a buffer: also the bytes written are
those of the plain implementation, and no others are modified. -/
theorem C50_squeeze (isa : Isa) (A : Lanes) (Y : Bytes) (o YLen : Nat) (hl : o + YLen ≤ Y.length) (h64 : YLen < 2 ^ 64) :
    (24 ≤ YLen → ∃ A' out n, squeezeKeyedFullBlocks isa A Y o YLen = some (A', Bytes.setAt Y o out, n) ∧ out.length = n ∧
      Xoodyak.squeezeKeyedFullBlocks Xoodoo.Ref.permute12 (bytesOfLanes A) YLen = some (bytesOfLanes A', out, n)) ∧
    (16 ≤ YLen → ∃ A' out n, squeezeHashFullBlocks isa A Y o YLen = some (A', Bytes.setAt Y o out, n) ∧ out.length = n ∧
      Xoodyak.squeezeHashFullBlocks Xoodoo.Ref.permute12 (bytesOfLanes A) YLen = some (bytesOfLanes A', out, n)) := by
  refine ⟨fun h => ?_, fun h => ?_⟩
  · obtain ⟨s', out, n, e1, e2, e3, e4⟩ := squeezeLoop_ok isa 24 (by omega) storeKeyed storeKeyed_ok (YLen + 1) (state2Vars A) Y o YLen (by omega)
      h hl h64 (by omega)
    rw [B_state2Vars] at e1
    refine ⟨vars2State s', out, YLen - n, ?_, e4, ?_⟩
    · rw [squeezeKeyedFullBlocks, e2, Option.bind_eq_bind, Option.bind_some, sub64_eq e3 h64]
    · rw [Xoodyak.squeezeKeyedFullBlocks, show Xoodyak.Rkout = 24 from rfl, e1]; rfl
  · obtain ⟨s', out, n, e1, e2, e3, e4⟩ := squeezeLoop_ok isa 16 (by omega) storeHash storeHash_ok (YLen + 1) (state2Vars A) Y o YLen (by omega)
      h hl h64 (by omega)
    rw [B_state2Vars] at e1
    refine ⟨vars2State s', out, YLen - n, ?_, e4, ?_⟩
    · rw [squeezeHashFullBlocks, e2, Option.bind_eq_bind, Option.bind_some, sub64_eq e3 h64]
    · rw [Xoodyak.squeezeHashFullBlocks, show Xoodyak.Rhash = 16 from rfl, e1]; rfl

theorem length_permute12 (s : Bytes) (hs : s.length = 48) : (Xoodoo.Ref.permute12 s).length = 48 := by
  rw [(Xoodoo.C42_ref s hs).2.2]; exact ((Xoodoo.C42_ref s hs).1 12 (by decide)).1

theorem crypt_ok (isa : Isa) (dec : Bool) (block : Planes → Bytes → Nat → Nat → Option (Planes × Bytes)) (D : Nat → Nat → Prop)
    (hD : ∀ i o, D i o → D (i + 24) (o + 24))
    (hb : ∀ s mem i o, i + 24 ≤ mem.length → o + 24 ≤ mem.length → D i o → ∃ s',
      block s mem i o = some (s', Bytes.setAt mem o (Bytes.xor ((mem.drop i).take 24) ((B s).take 24))) ∧
      B s' = Bytes.xorAt (Bytes.xorAt (B s) 0 (if dec then Bytes.xor ((mem.drop i).take 24) ((B s).take 24) else (mem.drop i).take 24)) 24 [1])
    (A : Lanes) (mem : Bytes) (i o IOLen : Nat) (h : 24 ≤ IOLen) (hi : i + IOLen ≤ mem.length) (ho : o + IOLen ≤ mem.length)
    (h64 : IOLen < 2 ^ 64) (hDio : D i o) (hov : o ≤ i ∨ i + IOLen ≤ o) :
    ∃ s' out n, Xoodyak.cryptFull Xoodoo.Ref.permute12 dec (IOLen + 1) (bytesOfLanes A) (mem.drop i) IOLen =
        some (bytesOfLanes (vars2State s'), out, n) ∧
      cryptLoop isa block (IOLen + 1) (state2Vars A) mem i o IOLen = some (s', Bytes.setAt mem o out, n) ∧ n ≤ IOLen ∧
      out.length = IOLen - n := by
  have hf : ∀ s : Bytes, s.length = 48 → (Xoodoo.Ref.permute12 s).length = 48 := length_permute12
  obtain ⟨s', out, n, e1, e2, e3, e4⟩ := cryptLoop_ok hf isa (B_rounds12 isa) dec block D hD hb (IOLen + 1) (state2Vars A) mem (mem.drop i) i o IOLen
    h hi ho h64 (by omega) hDio hov rfl (by rw [List.length_drop]; omega)
  rw [B_state2Vars] at e1
  exact ⟨s', out, n, e1, e2, e3, e4⟩

/-- C50, `Xoodyak_EncryptFullBlocks` with the input at position `i` and the output at position `o` of the memory: the state, the output and
the returned value are those of the plain implementation.  The buffers may overlap if the output does not begin after the input; in
particular they may be the same. -/
theorem C50_encrypt (isa : Isa) (A : Lanes) (mem : Bytes) (i o IOLen : Nat) (h : 24 ≤ IOLen) (hi : i + IOLen ≤ mem.length)
    (ho : o + IOLen ≤ mem.length) (h64 : IOLen < 2 ^ 64) (hov : o ≤ i ∨ i + IOLen ≤ o) :
    ∃ A' out n, encryptFullBlocks isa A mem i o IOLen = some (A', Bytes.setAt mem o out, n) ∧ out.length = n ∧
      Xoodyak.encryptFullBlocks Xoodoo.Ref.permute12 (bytesOfLanes A) (mem.drop i) IOLen = some (bytesOfLanes A', out, n) := by
  obtain ⟨s', out, n, e1, e2, e3, e4⟩ := crypt_ok isa false encryptBlock (fun _ _ => True) (fun _ _ _ => trivial)
    (fun s mem i o h1 h2 _ => encryptBlock_ok s mem i o h1 h2) A mem i o IOLen h hi ho h64 trivial hov
  refine ⟨vars2State s', out, IOLen - n, ?_, e4, ?_⟩
  · rw [encryptFullBlocks, e2, Option.bind_eq_bind, Option.bind_some, sub64_eq e3 h64]
  · rw [Xoodyak.encryptFullBlocks]
    change (Xoodyak.cryptFull Xoodoo.Ref.permute12 false (IOLen + 1) (bytesOfLanes A) (mem.drop i) IOLen).bind _ = _
    rw [e1]; rfl

/-- C50, `Xoodyak_DecryptFullBlocks` in its variants, with buffers that do not overlap.  What is missing is the call in place, for which the
plain implementation gives the same result and this one does not (`C50_decrypt_inplace_false`). -/
theorem C50_decrypt_partial (isa : Isa) (v : Half) (A : Lanes) (mem : Bytes) (i o IOLen : Nat) (h : 24 ≤ IOLen) (hi : i + IOLen ≤ mem.length)
    (ho : o + IOLen ≤ mem.length) (h64 : IOLen < 2 ^ 64) (hov : o + IOLen ≤ i ∨ i + IOLen ≤ o) :
    ∃ A' out n, decryptFullBlocks isa v A mem i o IOLen = some (A', Bytes.setAt mem o out, n) ∧ out.length = n ∧
      Xoodyak.decryptFullBlocks Xoodoo.Ref.permute12 (bytesOfLanes A) (mem.drop i) IOLen = some (bytesOfLanes A', out, n) := by
  obtain ⟨s', out, n, e1, e2, e3, e4⟩ := crypt_ok isa true (decryptBlock v) (fun i o => i + 24 ≤ o ∨ o + 24 ≤ i) (fun i o h => by omega)
    (fun s mem i o h1 h2 h3 => ⟨_, decryptBlock_eq v s mem i o h1 h2 (.inr h3), B_decrypted s mem i o h1 h3⟩) A mem i o IOLen h hi ho h64
    (by omega) (by omega)
  refine ⟨vars2State s', out, IOLen - n, ?_, e4, ?_⟩
  · rw [decryptFullBlocks, e2, Option.bind_eq_bind, Option.bind_some, sub64_eq e3 h64]
  · rw [Xoodyak.decryptFullBlocks]
    change (Xoodyak.cryptFull Xoodoo.Ref.permute12 true (IOLen + 1) (bytesOfLanes A) (mem.drop i) IOLen).bind _ = _
    rw [e1]; rfl

/-- C50: what `Xoodyak_DecryptFullBlocks` does in place, for one block.  The output is right, but bytes 16 to 23 of the state are those of the
plaintext where the plain implementation has the ciphertext. -/
theorem C50_decrypt_inplace (isa : Isa) (v : Half) (A : Lanes) (mem : Bytes) (i IOLen : Nat) (h : 24 ≤ IOLen) (h1 : IOLen < 48)
    (hi : i + IOLen ≤ mem.length) :
    ∃ A' s out, decryptFullBlocks isa v A mem i i IOLen = some (A', Bytes.setAt mem i out, 24) ∧
      Xoodyak.decryptFullBlocks Xoodoo.Ref.permute12 (bytesOfLanes A) (mem.drop i) IOLen = some (s, out, 24) ∧
      bytesOfLanes A' = Bytes.setAt s 16 (out.drop 16) := by
  have hf : ∀ s : Bytes, s.length = 48 → (Xoodoo.Ref.permute12 s).length = 48 := length_permute12
  have e := decryptBlock_eq v (rounds12 isa (state2Vars A)) mem i i (by omega) (by omega) (.inl rfl)
  have e' := B_decrypted_inplace (rounds12 isa (state2Vars A)) mem i (by omega)
  rw [B_rounds12, B_state2Vars] at e e'
  obtain ⟨s', e1⟩ : ∃ s', s' = decrypted (rounds12 isa (state2Vars A)) mem i i := ⟨_, rfl⟩
  rw [← e1] at e e'
  generalize hO : Bytes.xor ((mem.drop i).take 24) ((Xoodoo.Ref.permute12 (bytesOfLanes A)).take 24) = O at e e'
  refine ⟨vars2State s', _, O, ?_, ?_, e'⟩
  · rw [decryptFullBlocks, cryptLoop, e, Option.bind_eq_bind, Option.bind_eq_bind, Option.bind_some, sub64_eq h (by omega), if_neg (by omega),
      Option.bind_some]
    dsimp only
    rw [sub64_eq (by omega) (by omega), show IOLen - (IOLen - 24) = 24 by omega]
  · rw [Xoodyak.decryptFullBlocks]
    change (Xoodyak.cryptFull Xoodoo.Ref.permute12 true (IOLen + 1) (bytesOfLanes A) (mem.drop i) IOLen).bind _ = _
    rw [cryptFull_step hf true IOLen (bytesOfLanes A) (mem.drop i) O IOLen (by rw [List.length_drop]; omega) (length_bytesOfLanes A) hO,
      if_neg (by omega), Option.bind_some, if_pos rfl, show IOLen - (IOLen - 24) = 24 by omega]

/-- One block of zero bytes decrypted by the plain implementation from the state of zero bytes. -/
theorem decrypt_zero : (Xoodyak.decryptFullBlocks Xoodoo.Ref.permute12 (bytesOfLanes initState) (Bytes.zeros 24) 24).map
    (fun r => (decide (Bytes.setAt r.1 16 (r.2.1.drop 16) = r.1), r.2.1.length)) = some (false, 24) := by decide +kernel

/-- C50: in place, `Xoodyak_DecryptFullBlocks` does not do what the plain implementation does, in any variant. -/
theorem C50_decrypt_inplace_false : ∃ (A : Lanes) (mem : Bytes), mem.length = 24 ∧ ∀ isa v, ∃ A' s out,
    decryptFullBlocks isa v A mem 0 0 24 = some (A', out, 24) ∧
    Xoodyak.decryptFullBlocks Xoodoo.Ref.permute12 (bytesOfLanes A) mem 24 = some (s, out, 24) ∧ bytesOfLanes A' ≠ s := by
  refine ⟨initState, Bytes.zeros 24, rfl, fun isa v => ?_⟩
  obtain ⟨A', s, out, e1, e2, e3⟩ := C50_decrypt_inplace isa v initState (Bytes.zeros 24) 0 24 (by omega) (by omega) (by simp [Bytes.zeros])
  rw [List.drop_zero] at e2
  have hz := decrypt_zero
  rw [e2, Option.map_some, Option.some.injEq, Prod.mk.injEq] at hz
  rw [setAt_all (by rw [hz.2]; rfl)] at e1
  exact ⟨A', s, out, e1, e2, fun h => of_decide_eq_false hz.1 (e3.symm.trans h)⟩

/-! ### Xoofff -/

open XoofffSimd (serial)

/-- C50, compression: the new mask, the new accumulator and the number of bytes are those of processing the blocks one after the other. -/
theorem C50_compress (k x input : Bytes) (len : Nat) (hk : k.length = 48) (hx : x.length = 48) (h1 : 48 ≤ len) (hl : len ≤ input.length)
    (h64 : len < 2 ^ 64) :
    compressFastLoop k x input len =
      some ((Farfalle.eat serial (len / 48) (k, x) input).1, (Farfalle.eat serial (len / 48) (k, x) input).2, len / 48 * 48) :=
  compress_ok rfl rfl rfl k x input len hk hx h1 hl h64

/-- C50, expansion: the blocks are those of the serial code, and the bytes after them are not modified. -/
theorem C50_expand (y kRoll output : Bytes) (len : Nat) (hk : kRoll.length = 48) (hy : y.length = 48) (h1 : 48 ≤ len)
    (hl : len ≤ output.length) (h64 : len < 2 ^ 64) :
    expandFastLoop y kRoll output len = some (Nat.repeat (Farfalle.re serial) (len / 48) y,
      Farfalle.gen serial kRoll (len / 48) y ++ output.drop (len / 48 * 48), len / 48 * 48) :=
  expand_ok rfl rfl y kRoll output len hk hy h1 hl h64

/-- What is called at Xoofff.c:412-416 with this implementation.  Lengths that do not fit in a `size_t` cannot occur; for these the function is
the contract. -/
def compress (k x m : Bytes) : Bytes × Bytes × Nat :=
  if m.length < 2 ^ 64 then (compressFastLoop k x m m.length).getD ([], [], 0)
  else ((Farfalle.eat serial (m.length / 48) (k, x) m).1, (Farfalle.eat serial (m.length / 48) (k, x) m).2, m.length / 48 * 48)

/-- What is called at Xoofff.c:601-605: the new `yAccu` and the bytes that count as written. -/
def expand (y kRoll : Bytes) (len : Nat) : Bytes × Bytes :=
  if len < 2 ^ 64 then ((expandFastLoop y kRoll (Bytes.zeros len) len).map fun r => (r.1, r.2.1.take r.2.2)).getD ([], [])
  else (Nat.repeat (Farfalle.re serial) (len / 48) y, Farfalle.gen serial kRoll (len / 48) y)

/-- The last path of `Xoofff.c` with this implementation. -/
def path : Path := .fast 1 compress expand

theorem compress_eq (k x m : Bytes) (hk : k.length = 48) (hx : x.length = 48) (h1 : 48 ≤ m.length) : compress k x m =
    ((Farfalle.eat serial (m.length / 48) (k, x) m).1, (Farfalle.eat serial (m.length / 48) (k, x) m).2, m.length / 48 * 48) := by
  unfold compress
  split
  · rename_i h
    rw [C50_compress k x m m.length hk hx h1 (Nat.le_refl _) h]; rfl
  · rfl

theorem expand_eq (y kRoll : Bytes) (len : Nat) (hk : kRoll.length = 48) (hy : y.length = 48) (h1 : 48 ≤ len) :
    expand y kRoll len = (Nat.repeat (Farfalle.re serial) (len / 48) y, Farfalle.gen serial kRoll (len / 48) y) := by
  unfold expand
  split
  · rename_i h
    rw [C50_expand y kRoll _ len hk hy h1 (by rw [Bytes.length_zeros]) h]
    have hg := XoofffSimd.length_gen6 (C := serial) rfl hk (len / 48) y
    show (_, _) = _
    rw [List.take_left' (by rw [hg]; exact Nat.mul_comm _ _)]
  · rfl

section

variable {permute : Bytes → Bytes} (hp : ∀ s : Bytes, s.length = 48 → (permute s).length = 48 ∧
    Bits.ofBytes (permute s) = Spec.Xoodoo.xoodoo 6 (Bits.ofBytes s)) {junk : Bytes} {paths : List Path}

include hp

/-- C50: the functions for Xoofff meet the contract of a path. -/
theorem C50_path : PathOk (Xoofff.cfg permute junk paths) path := by
  refine ⟨Nat.one_pos, fun k x m hk hx hm => ?_, fun y kRoll len hy hk hl => ?_⟩
  · change k.length = 48 at hk
    change x.length = 48 at hx
    change 48 ≤ m.length at hm
    show compress k x m = ((Farfalle.eat _ (m.length / 48 * 1) (k, x) m).1,
      (Farfalle.eat _ (m.length / 48 * 1) (k, x) m).2, m.length / 48 * 1 * 48)
    rw [Nat.mul_one, compress_eq k x m hk hx hm, XoofffSimd.eat_eq hp _ _ _ _ hk (by omega)]
  · change y.length = 48 at hy
    change kRoll.length = 48 at hk
    change 48 ≤ len at hl
    show expand y kRoll len = (Nat.repeat (Farfalle.re serial) (len / 48 * 1) y, Farfalle.gen _ kRoll (len / 48 * 1) y)
    rw [Nat.mul_one, expand_eq y kRoll len hk hy hl, XoofffSimd.gen_eq hp _ _ _ hy]

end

/-- C50: Xoofff with the paths of an AVX-512 build: those of the files for several states and then the functions of this implementation, with
its permutation in the serial code, is Farfalle with the parameters of Xoofff. -/
theorem C50_xoofff (junk : Bytes) (hj : junk.length = 48) (paths : List Path) (hpaths : ∀ p ∈ paths, XoofffSimd.Simd p ∨ p = path) :
    Valid (Xoofff.cfg (fun s => bytesOfLanes (permute6 .avx512 (Xoodoo.lanesOfBytes s))) junk paths) ∧
    Matches (Xoofff.cfg (fun s => bytesOfLanes (permute6 .avx512 (Xoodoo.lanesOfBytes s))) junk paths) Spec.Xoofff.par := by
  have hp : ∀ s : Bytes, s.length = 48 → (bytesOfLanes (permute6 .avx512 (Xoodoo.lanesOfBytes s))).length = 48 ∧
      Bits.ofBytes (bytesOfLanes (permute6 .avx512 (Xoodoo.lanesOfBytes s))) = Spec.Xoodoo.xoodoo 6 (Bits.ofBytes s) := fun s hs =>
    ⟨length_bytesOfLanes _, by rw [(C50_permute_spec _ _).2.1, Xoodoo.bytesOfLanes_lanesOfBytes s hs]⟩
  refine Farfalle.xoofff_ok _ hp junk hj paths fun p h => ?_
  rcases hpaths p h with (⟨f, rfl⟩ | ⟨P, h0, rfl⟩) | rfl
  · exact XoofffSimd.C48_path hp f
  · exact h0
  · exact C50_path hp

/-- C50, `Xoofff_AddIs` of this implementation, which has the text of `Xooffftimes4_AddIs`. -/
theorem C50_addIs (output input : Bytes) (bitLen : Nat) (ho : (bitLen + 7) / 8 ≤ output.length) (hi : (bitLen + 7) / 8 ≤ input.length) :
    XoofffSimd.addIs XoofffSimd.add128' output input bitLen = Farfalle.addIs output input bitLen :=
  XoofffSimd.addIs_ok XoofffSimd.add128'_ok output input bitLen ho hi

/-! ### Cases that meet the hypotheses -/

-- 100 bytes: two blocks of 44 bytes are absorbed
example : ∃ A' n, absorbKeyedFullBlocks .xop initState ((List.range 100).map (BitVec.ofNat 8)) 100 = some (A', n) ∧
    Xoodyak.absorbKeyedFullBlocks Xoodoo.Ref.permute12 (bytesOfLanes initState) ((List.range 100).map (BitVec.ofNat 8)) 100 =
      some (bytesOfLanes A', n) :=
  (C50_absorb .xop initState _ 100 (by decide) (by decide)).1 (by decide)

-- encryption in place and decryption from one half of a buffer to the other
example : ∃ A' out n, encryptFullBlocks .sse initState (Bytes.zeros 60) 5 5 50 = some (A', Bytes.setAt (Bytes.zeros 60) 5 out, n) ∧
    out.length = n ∧ Xoodyak.encryptFullBlocks Xoodoo.Ref.permute12 (bytesOfLanes initState) ((Bytes.zeros 60).drop 5) 50 =
      some (bytesOfLanes A', out, n) :=
  C50_encrypt .sse initState (Bytes.zeros 60) 5 5 50 (by decide) (by decide) (by decide) (by decide) (by decide)

example : ∃ A' out n, decryptFullBlocks .avx512 .w64 initState (Bytes.zeros 120) 0 60 50 = some (A', Bytes.setAt (Bytes.zeros 120) 60 out, n) ∧
    out.length = n ∧ Xoodyak.decryptFullBlocks Xoodoo.Ref.permute12 (bytesOfLanes initState) ((Bytes.zeros 120).drop 0) 50 =
      some (bytesOfLanes A', out, n) :=
  C50_decrypt_partial .avx512 .w64 initState (Bytes.zeros 120) 0 60 50 (by decide) (by decide) (by decide) (by decide) (by decide)

-- the paths of an AVX-512 build
example (j : Simd32.Vec 4) : ∀ p ∈ [XoofffSimd.path .avx512times16, XoofffSimd.path .avx512times8, XoofffSimd.path (.avx512times4 j), path],
    XoofffSimd.Simd p ∨ p = path := by
  intro p hp
  simp only [List.mem_cons, List.not_mem_nil, or_false] at hp
  rcases hp with rfl | rfl | rfl | rfl
  · exact .inl (.inl ⟨_, rfl⟩)
  · exact .inl (.inl ⟨_, rfl⟩)
  · exact .inl (.inl ⟨_, rfl⟩)
  · exact .inr rfl

end XoodooPlanes
