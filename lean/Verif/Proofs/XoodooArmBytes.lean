import Verif.Proofs.XoodooArmFull
import Verif.Proofs.KeccakArmv8Bytes
import Verif.Proofs.XoofffAddIs

/-!
Access to the bytes of the state, and `Xoofff_AddIs`, in the ARM assembly.
-/

namespace XoodooArm

open Xoodoo (Lane bytesOfWord byteOf)
open Simd32 (wd loadWord storeWord)
open X86 (mixOf outOf mixOf_add outOf_add mixOf_eq outOf_eq slice_one rd8_ok wr8_ok)
open Armv8Asm (setAt_mix slice_zero)
open XoodooPlanes (loadWord_ok storeWord_eq)

/-! ### The loops -/

theorem add_sub32 {a b : Nat} (h : a < b) (hb : b < 2 ^ 32) : add32 (sub32 a b) b = a := by unfold sub32 add32; omega

/-- `f i` is what the bodies have made of `f 0` after `i` of the `len` bytes. -/
theorem blockLoop_eq {σ : Type} (k : Nat) (hk : 0 < k) (body : σ → Option σ) (f : Nat → σ) (len : Nat) (hlen : len < 2 ^ 32)
    (hb : ∀ i, i + k ≤ len → body (f i) = some (f (i + k))) :
    ∀ (fuel n i : Nat), n < fuel → i + n = len → blockLoop k body fuel (f i) n = some (f (len - n % k), sub32 (n % k) k) := by
  intro fuel
  induction fuel with
  | zero => intro n i hf; omega
  | succ fuel ih =>
    intro n i hf hi
    rw [blockLoop]
    by_cases h : n < k
    · rw [if_pos h, Nat.mod_eq_of_lt h, show len - n = i by omega]
    · rw [if_neg h, hb i (by omega), Option.bind_eq_bind, Option.bind_some, sub32_eq (by omega) (by omega), ih (n - k) (i + k) (by omega) (by omega),
        ← Nat.mod_eq_sub_mod (by omega)]

theorem tailLoop_eq {σ : Type} (body : σ → Option σ) (f : Nat → σ) (len : Nat) (hlen : len < 2 ^ 32)
    (hb : ∀ i, i + 1 ≤ len → body (f i) = some (f (i + 1))) :
    ∀ (fuel n i : Nat), n < fuel → i + (n + 1) = len → tailLoop body fuel (f i) n = some (f len) := by
  intro fuel
  induction fuel with
  | zero => intro n i hf; omega
  | succ fuel ih =>
    intro n i hf hi
    rw [tailLoop, hb i (by omega), Option.bind_eq_bind, Option.bind_some]
    by_cases h : n < 1
    · rw [if_pos h, show i + 1 = len by omega]
    · rw [if_neg h, sub32_eq (by omega) (by omega), ih (n - 1) (i + 1) (by omega) (by omega)]

theorem stages_eq {σ : Type} (word byte : σ → Option σ) (f : Nat → σ) (len : Nat) (hlen : len < 2 ^ 32)
    (h4 : ∀ i, i + 4 ≤ len → word (f i) = some (f (i + 4))) (h1 : ∀ i, i + 1 ≤ len → byte (f i) = some (f (i + 1))) :
    stages word byte (f 0) len = some (f len) := by
  unfold stages
  rw [blockLoop_eq 4 (by decide) word f len hlen h4 (2 ^ 32) len 0 (by omega) (by omega), Option.bind_eq_bind, Option.bind_some]
  dsimp only
  have e : sub32 (len % 4) 4 = 2 ^ 32 - 4 + len % 4 := by unfold sub32; omega
  rw [e]
  by_cases h : len % 4 = 0
  · rw [if_pos (by omega), h, Nat.sub_zero]
  · rw [if_neg (by omega), show add32 (2 ^ 32 - 4 + len % 4) 3 = len % 4 - 1 by unfold add32; omega]
    exact tailLoop_eq byte f len hlen h1 (2 ^ 32) (len % 4 - 1) (len - len % 4) (by omega) (by omega)

/-! ### The bodies -/

theorem bytesOfWord_map (w : Lane) : bytesOfWord w = (List.range 4).map (byteOf w) := by
  apply List.ext_getElem?; intro j
  rw [Xoodoo.getElem?_bytesOfWord, List.getElem?_map]
  by_cases h : j < 4
  · rw [if_pos h, List.getElem?_range h]; rfl
  · rw [if_neg h, List.getElem?_eq_none (by simp; omega)]; rfl

theorem bytesOfWord_out (st : Bytes) (a : Nat) : bytesOfWord (wd (st.drop a) 0) = outOf st a 4 := by
  rw [bytesOfWord_map, outOf]
  apply List.map_congr_left
  intro q hq
  rw [Simd32.byteOf_wd _ _ _ (List.mem_range.1 hq), List.getD_eq_getElem?_getD, List.getElem?_drop, List.getD_eq_getElem?_getD]
  simp

theorem bytesOfWord_mix (st d : Bytes) (a j : Nat) : bytesOfWord (wd (st.drop a) 0 ^^^ wd (d.drop j) 0) = mixOf st d a j 4 := by
  rw [bytesOfWord_map, mixOf]
  apply List.map_congr_left
  intro q hq
  rw [Xoodoo.byteOf_xor, Simd32.byteOf_wd _ _ _ (List.mem_range.1 hq), Simd32.byteOf_wd _ _ _ (List.mem_range.1 hq),
    List.getD_eq_getElem?_getD, List.getElem?_drop, List.getD_eq_getElem?_getD, List.getElem?_drop, List.getD_eq_getElem?_getD,
    List.getD_eq_getElem?_getD]
  simp

theorem ld_ok (m : Bytes) (a : Nat) (h : a + 4 ≤ m.length) : loadWord m a = some (wd (m.drop a) 0) := loadWord_ok m a 0 (by omega)

theorem ldrb_ok (m : Bytes) (a : Nat) (h : a < m.length) : ldrb m a = some (m.getD a 0) := rd8_ok m a h

theorem addWord_ok (d : Bytes) (st : Bytes) (a j : Nat) (h : a + 4 ≤ st.length) (hd : j + 4 ≤ d.length) :
    addWord d ⟨st, a, j⟩ = some ⟨Bytes.xorAt st a (Bytes.slice d j 4), a + 4, j + 4⟩ := by
  unfold addWord
  dsimp only
  rw [ld_ok _ _ h, ld_ok _ _ hd]
  simp only [Option.bind_eq_bind, Option.bind_some]
  rw [storeWord_eq _ _ _ h, bytesOfWord_mix, setAt_mix _ _ _ _ _ hd]
  rfl

theorem addOne_ok (d : Bytes) (st : Bytes) (a j : Nat) (h : a + 1 ≤ st.length) (hd : j + 1 ≤ d.length) :
    addOne d ⟨st, a, j⟩ = some ⟨Bytes.xorAt st a (Bytes.slice d j 1), a + 1, j + 1⟩ := by
  unfold addOne
  dsimp only
  rw [ldrb_ok _ _ h, ldrb_ok _ _ hd]
  simp only [Option.bind_eq_bind, Option.bind_some]
  have w := wr8_ok .xor st a (d.getD j 0) (by omega)
  rw [← slice_one d j (by omega)] at w
  exact congrArg (·.bind fun st => some (⟨st, a + 1, j + 1⟩ : Wr)) w

/-- The state after the first `i` bytes of the data have been added. -/
theorem added (s d : Bytes) (o i k : Nat) (hi : i + k ≤ d.length) :
    Bytes.xorAt (Bytes.xorAt s o (Bytes.slice d 0 i)) (o + i) (Bytes.slice d i k) = Bytes.xorAt s o (Bytes.slice d 0 (i + k)) := by
  have e := Bytes.xorAt_append s o (Bytes.slice d 0 i) (Bytes.slice d i k)
  rw [Bytes.length_slice_of_le (by omega)] at e
  rw [e, ← Relaned.slice_append d 0 i k, Nat.zero_add]

theorem addBytes_eq (s d : Bytes) (hs : s.length = 48) (o len : Nat) (h : o + len ≤ 48) (hd : len ≤ d.length) :
    addBytes s d o len = some (Bytes.xorAt s o (d.take len)) := by
  have hl : ∀ i, (Bytes.xorAt s o (Bytes.slice d 0 i)).length = 48 := fun i => by rw [Bytes.length_xorAt, hs]
  have e := stages_eq (addWord d) (addOne d) (fun i => ⟨Bytes.xorAt s o (Bytes.slice d 0 i), o + i, i⟩) len (by omega)
    (fun i hi => by rw [addWord_ok _ _ _ _ (by rw [hl]; omega) (by omega), added _ _ _ _ _ (by omega), Nat.add_assoc])
    (fun i hi => by rw [addOne_ok _ _ _ _ (by rw [hl]; omega) (by omega), added _ _ _ _ _ (by omega), Nat.add_assoc])
  rw [show Bytes.slice d 0 0 = [] from rfl, Bytes.xorAt_nil, Nat.add_zero] at e
  unfold addBytes
  rw [e, Option.bind_eq_bind, Option.bind_some, slice_zero]

theorem overwriteBytes_eq (s d : Bytes) (hs : s.length = 48) (o len : Nat) (h : o + len ≤ 48) (hd : len ≤ d.length) :
    overwriteBytes s d o len = some (Bytes.setAt s o (d.take len)) := by
  have key : ∀ k i, i + k ≤ len → Bytes.setAt (Bytes.setAt s o (Bytes.slice d 0 i)) (o + i) (Bytes.slice d i k) =
      Bytes.setAt s o (Bytes.slice d 0 (i + k)) := fun k i hi => by
    have e := Bytes.setAt_append s o (Bytes.slice d 0 i) (Bytes.slice d i k)
    rw [Bytes.length_slice_of_le (by omega)] at e
    rw [e, ← Relaned.slice_append d 0 i k, Nat.zero_add]
  have hl : ∀ i, (Bytes.setAt s o (Bytes.slice d 0 i)).length = 48 := fun i => by rw [Bytes.length_setAt, hs]
  have e := stages_eq (overwriteWord d) (overwriteOne d) (fun i => ⟨Bytes.setAt s o (Bytes.slice d 0 i), o + i, i⟩) len (by omega)
    (fun i hi => by
      unfold overwriteWord
      dsimp only
      rw [ld_ok _ _ (by omega)]
      simp only [Option.bind_eq_bind, Option.bind_some]
      rw [storeWord_eq _ _ _ (by rw [hl]; omega), bytesOfWord_out, outOf_eq _ _ _ (by omega), key 4 i hi]
      rfl)
    (fun i hi => by
      unfold overwriteOne
      dsimp only
      rw [ldrb_ok _ _ (by omega)]
      simp only [Option.bind_eq_bind, Option.bind_some]
      have w := wr8_ok .mov (Bytes.setAt s o (Bytes.slice d 0 i)) (o + i) (d.getD i 0) (by rw [hl]; omega)
      rw [← slice_one d i (by omega)] at w
      rw [← key 1 i hi]
      exact congrArg (·.bind fun st => some (⟨st, o + i + 1, i + 1⟩ : Wr)) w)
  rw [show Bytes.slice d 0 0 = [] from rfl, Bytes.setAt_nil, Nat.add_zero] at e
  unfold overwriteBytes
  rw [e, Option.bind_eq_bind, Option.bind_some, slice_zero]

theorem zeroLoop_eq (write : Bytes → Nat → Option Bytes) (step : Nat) (s : Bytes)
    (hw : ∀ i, i + step ≤ s.length → write (Bytes.setAt s 0 (List.replicate i 0)) i = some (Bytes.setAt s 0 (List.replicate (i + step) 0))) :
    ∀ (fuel n i : Nat), n < fuel → 0 < n → n < 2 ^ 32 → i + step * n ≤ s.length →
      zeroLoop write step fuel (Bytes.setAt s 0 (List.replicate i 0)) i n = some (Bytes.setAt s 0 (List.replicate (i + step * n) 0), i + step * n) := by
  intro fuel
  induction fuel with
  | zero => intro n i hf; omega
  | succ fuel ih =>
    intro n i hf h0 h32 hi
    obtain ⟨n, rfl⟩ : ∃ m, n = m + 1 := ⟨n - 1, by omega⟩
    rw [Nat.mul_add, Nat.mul_one] at hi
    rw [zeroLoop, hw i (by omega), Option.bind_eq_bind, Option.bind_some, sub32_eq (by omega) h32, Nat.add_sub_cancel]
    by_cases h : n = 0
    · rw [if_neg (by omega), h, Nat.zero_add, Nat.mul_one]
    · rw [if_pos h, ih n (i + step) (by omega) (by omega) (by omega) (by omega), Nat.mul_add, Nat.mul_one, Nat.add_right_comm, ← Nat.add_assoc]

theorem unlessZero_eq (write : Bytes → Nat → Option Bytes) (step : Nat) (s : Bytes)
    (hw : ∀ i, i + step ≤ s.length → write (Bytes.setAt s 0 (List.replicate i 0)) i = some (Bytes.setAt s 0 (List.replicate (i + step) 0)))
    (n i : Nat) (h32 : n < 2 ^ 32) (hi : i + step * n ≤ s.length) :
    unlessZero write step (Bytes.setAt s 0 (List.replicate i 0)) i n = some (Bytes.setAt s 0 (List.replicate (i + step * n) 0), i + step * n) := by
  unfold unlessZero
  by_cases h : n = 0
  · rw [if_pos h, h, Nat.mul_zero, Nat.add_zero]
  · rw [if_neg h, zeroLoop_eq write step s hw _ _ _ h32 (by omega) h32 hi]

theorem overwriteWithZeroes_eq (s : Bytes) (hs : s.length = 48) (n : Nat) (h : n ≤ 48) :
    overwriteWithZeroes s n = some (Bytes.setAt s 0 (List.replicate n 0)) := by
  have key : ∀ k i, Bytes.setAt (Bytes.setAt s 0 (List.replicate i 0)) i (List.replicate k 0) = Bytes.setAt s 0 (List.replicate (i + k) 0) := fun k i => by
    have e := Bytes.setAt_append s 0 (List.replicate i 0) (List.replicate k 0)
    rwa [List.length_replicate, Nat.zero_add, List.replicate_append_replicate] at e
  have hl : ∀ i, (Bytes.setAt s 0 (List.replicate i (0 : Byte))).length = 48 := fun i => by rw [Bytes.length_setAt, hs]
  have e1 := unlessZero_eq (fun st r0 => storeWord st r0 0) 4 s (fun i hi => by
    rw [storeWord_eq _ _ _ (by rw [hl]; omega), show bytesOfWord 0 = List.replicate 4 0 from by decide, key 4 i]) (n / 4) 0 (by omega) (by omega)
  have e2 := unlessZero_eq (fun st r0 => strb st r0 0) 1 s (fun i hi => by
    rw [← key 1 i]
    exact wr8_ok .mov (Bytes.setAt s 0 (List.replicate i 0)) i 0 (by rw [hl]; omega)) (n % 4) (0 + 4 * (n / 4)) (by omega) (by omega)
  rw [List.replicate_zero, Bytes.setAt_nil] at e1
  unfold overwriteWithZeroes
  rw [e1, Option.bind_eq_bind, Option.bind_some, e2, Option.bind_some, show 0 + 4 * (n / 4) + 1 * (n % 4) = n by omega]

theorem extractBytes_eq (s : Bytes) (hs : s.length = 48) (o len : Nat) (h : o + len ≤ 48) :
    extractBytes s o len = some (Bytes.slice s o len) := by
  have e := stages_eq (extractWord s) (extractOne s) (fun i => ⟨outOf s o i, o + i⟩) len (by omega)
    (fun i hi => by
      unfold extractWord
      dsimp only
      rw [ld_ok _ _ (by omega)]
      simp only [Option.bind_eq_bind, Option.bind_some]
      rw [bytesOfWord_out, outOf_add, Nat.add_assoc])
    (fun i hi => by
      unfold extractOne
      dsimp only
      rw [ldrb_ok _ _ (by omega)]
      simp only [Option.bind_eq_bind, Option.bind_some]
      rw [show [s.getD (o + i) 0] = outOf s (o + i) 1 from rfl, outOf_add, Nat.add_assoc])
  rw [show outOf s o 0 = [] from rfl, Nat.add_zero] at e
  unfold extractBytes
  rw [e, Option.bind_eq_bind, Option.bind_some, outOf_eq _ _ _ (by omega)]

theorem extractAndAddBytes_eq (s d : Bytes) (hs : s.length = 48) (o len : Nat) (h : o + len ≤ 48) (hd : len ≤ d.length) :
    extractAndAddBytes s d o len = some (Bytes.xor (d.take len) (Bytes.slice s o len)) := by
  have key := fun i k => mixOf_add s d o 0 i k
  simp only [Nat.zero_add] at key
  have e := stages_eq (extractAddWord s d) (extractAddOne s d) (fun i => ⟨mixOf s d o 0 i, o + i, i⟩) len (by omega)
    (fun i hi => by
      unfold extractAddWord
      dsimp only
      rw [ld_ok _ _ (by omega), ld_ok _ _ (by omega)]
      simp only [Option.bind_eq_bind, Option.bind_some]
      rw [bytesOfWord_mix, key, Nat.add_assoc])
    (fun i hi => by
      unfold extractAddOne
      dsimp only
      rw [ldrb_ok _ _ (by omega), ldrb_ok _ _ (by omega)]
      simp only [Option.bind_eq_bind, Option.bind_some]
      rw [show [s.getD (o + i) 0 ^^^ d.getD i 0] = mixOf s d (o + i) i 1 from rfl, key, Nat.add_assoc])
  rw [show mixOf s d o 0 0 = [] from rfl, Nat.add_zero] at e
  unfold extractAndAddBytes
  rw [e, Option.bind_eq_bind, Option.bind_some, mixOf_eq _ _ _ _ (by omega) hd]

theorem addByte_eq (s : Bytes) (hs : s.length = 48) (b : Byte) (o : Nat) (ho : o < 48) : addByte s b o = some (Bytes.xorAt s o [b]) := by
  unfold addByte
  rw [ldrb_ok _ _ (by omega)]
  exact wr8_ok .xor s o b (by omega)

/-! ### `Xoofff_AddIs` -/

theorem add4Words_ok (d : Bytes) (st : Bytes) (a j : Nat) (h : a + 16 ≤ st.length) (hd : j + 16 ≤ d.length) :
    add4Words d ⟨st, a, j⟩ = some ⟨Bytes.xorAt st a (Bytes.slice d j 16), a + 16, j + 16⟩ := by
  unfold add4Words
  dsimp only
  rw [ld_ok st (a + 0) (by omega), ld_ok st (a + 4) (by omega), ld_ok st (a + 8) (by omega), ld_ok st (a + 12) (by omega), ld_ok d j (by omega),
    ld_ok d (j + 4) (by omega), ld_ok d (j + 8) (by omega), ld_ok d (j + 12) (by omega)]
  simp only [Option.bind_eq_bind, Option.bind_some, Nat.add_zero]
  rw [storeWord_eq _ _ _ (by omega)]
  simp only [Option.bind_some]
  rw [storeWord_eq _ _ _ (by rw [Bytes.length_setAt]; omega)]
  simp only [Option.bind_some]
  rw [storeWord_eq _ _ _ (by rw [Bytes.length_setAt, Bytes.length_setAt]; omega)]
  simp only [Option.bind_some]
  rw [storeWord_eq _ _ _ (by rw [Bytes.length_setAt, Bytes.length_setAt, Bytes.length_setAt]; omega)]
  simp only [Option.bind_some, bytesOfWord_mix]
  have hm : ∀ n, (mixOf st d a j n).length = n := fun n => by simp [mixOf]
  have hs : ∀ k n, Bytes.setAt (Bytes.setAt st a (mixOf st d a j k)) (a + k) (mixOf st d (a + k) (j + k) n) =
      Bytes.setAt st a (mixOf st d a j (k + n)) := fun k n => by
    have e := Bytes.setAt_append st a (mixOf st d a j k) (mixOf st d (a + k) (j + k) n)
    rwa [hm k, mixOf_add] at e
  rw [hs 4 4, hs 8 4, hs 12 4, setAt_mix _ _ _ _ _ hd]

theorem addBlock_ok' (d : Bytes) (st : Bytes) (a j : Nat) (h : a + 48 ≤ st.length) (hd : j + 48 ≤ d.length) :
    addBlock d ⟨st, a, j⟩ = some ⟨Bytes.xorAt st a (Bytes.slice d j 48), a + 48, j + 48⟩ := by
  have hs : ∀ k n, j + k + n ≤ d.length → Bytes.xorAt (Bytes.xorAt st a (Bytes.slice d j k)) (a + k) (Bytes.slice d (j + k) n) =
      Bytes.xorAt st a (Bytes.slice d j (k + n)) := fun k n hk => by
    have e := Bytes.xorAt_append st a (Bytes.slice d j k) (Bytes.slice d (j + k) n)
    rwa [Bytes.length_slice_of_le (by omega), Relaned.slice_append] at e
  unfold addBlock
  simp only [Option.bind_eq_bind]
  rw [add4Words_ok _ _ _ _ (by omega) (by omega), Option.bind_some, add4Words_ok _ _ _ _ (by rw [Bytes.length_xorAt]; omega) (by omega),
    Option.bind_some, hs 16 16 (by omega), add4Words_ok _ _ _ _ (by rw [Bytes.length_xorAt]; omega) (by omega), Nat.add_assoc a, Nat.add_assoc j,
    hs 32 16 (by omega)]

theorem maskByte (a b : Byte) (k : Nat) (hk : k < 8) :
    ((a.setWidth 32 ^^^ b.setWidth 32) &&& (((1 : BitVec 32) <<< k) - 1)).setWidth 8 = (a ^^^ b) &&& BitVec.ofNat 8 (2 ^ k - 1) := by
  have e : ∀ k : Fin 8, ((1 : BitVec 32) <<< k.val - 1).setWidth 8 = BitVec.ofNat 8 (2 ^ k.val - 1) := by decide
  rw [← e ⟨k, hk⟩, BitVec.setWidth_and, BitVec.setWidth_xor]
  congr 2 <;> apply BitVec.eq_of_getLsbD_eq <;> intro i hi <;> simp

theorem xorAt_front (t s : Bytes) (m : Nat) (ht : m ≤ t.length) (hs : m ≤ s.length) :
    Bytes.xorAt t 0 (s.take m) = Bytes.xor (t.take m) (s.take m) ++ t.drop m := by
  have hx : (Bytes.xor (t.take m) (s.take m)).length = m := by rw [Bytes.length_xor, List.length_take, List.length_take]; omega
  refine XoofffSimd.adds_ext ht hs (Bytes.length_xorAt ..) fun q => ?_
  by_cases hq : q < t.length
  · have e := X86.getD_opAt .xor t 0 (s.take m) q hq
    rw [List.length_take] at e
    refine Eq.trans e ?_
    by_cases h : q < m
    · rw [if_pos (by omega), if_pos h, Nat.sub_zero, List.getD_eq_getElem?_getD (l := s.take m), List.getElem?_take, if_pos h,
        ← List.getD_eq_getElem?_getD]
      exact BitVec.xor_comm _ _
    · rw [if_neg (by omega), if_neg h]
  · rw [if_neg (by omega)]
    rw [List.getD_eq_getElem?_getD, List.getD_eq_getElem?_getD, List.getElem?_eq_none (by rw [Bytes.length_xorAt]; omega),
      List.getElem?_eq_none (by omega)]

/-- `Xoofff_AddIs` with other bodies of the first two loops. -/
def addIsWith (body48 body16 : Wr → Option Wr) (output input : Bytes) (bitLen : Nat) : Option Bytes := do
  let st ← blockLoop (48 * 8) body48 (2 ^ 32) ⟨output, 0, 0⟩ bitLen
  let n := add32 st.2 (48 * 8)
  if n = 0 then some st.1.st
  else do
    let st ← blockLoop (16 * 8) body16 (2 ^ 32) st.1 n
    let n := add32 st.2 (16 * 8)
    if n = 0 then some st.1.st
    else do
      let st ← blockLoop (4 * 8) (addWord input) (2 ^ 32) st.1 n
      let n := add32 st.2 (4 * 8)
      if n = 0 then some st.1.st
      else do
        let st ← blockLoop 8 (addOne input) (2 ^ 32) st.1 n
        let n := add32 st.2 8
        if n = 0 then some st.1.st else addBits input st.1 n

theorem addIsWith_run (body48 body16 : Wr → Option Wr) (t s : Bytes) (n : Nat) (ht : (n + 7) / 8 ≤ t.length) (hs : (n + 7) / 8 ≤ s.length)
    (h32 : n < 2 ^ 32)
    (h48 : ∀ st a j, a + 48 ≤ st.length → j + 48 ≤ s.length → body48 ⟨st, a, j⟩ = some ⟨Bytes.xorAt st a (Bytes.slice s j 48), a + 48, j + 48⟩)
    (h16 : ∀ st a j, a + 16 ≤ st.length → j + 16 ≤ s.length → body16 ⟨st, a, j⟩ = some ⟨Bytes.xorAt st a (Bytes.slice s j 16), a + 16, j + 16⟩) :
    addIsWith body48 body16 t s n = if n % 8 = 0 then some (Bytes.xorAt t 0 (Bytes.slice s 0 (n / 8)))
      else addBits s ⟨Bytes.xorAt t 0 (Bytes.slice s 0 (n / 8)), n / 8, n / 8⟩ (n % 8) := by
  have hl : ∀ i, (Bytes.xorAt t 0 (Bytes.slice s 0 i)).length = t.length := fun i => Bytes.length_xorAt ..
  let f : Nat → Wr := fun i => ⟨Bytes.xorAt t 0 (Bytes.slice s 0 (i / 8)), i / 8, i / 8⟩
  have had : ∀ i k, i + k ≤ s.length → Bytes.xorAt (Bytes.xorAt t 0 (Bytes.slice s 0 i)) i (Bytes.slice s i k) =
      Bytes.xorAt t 0 (Bytes.slice s 0 (i + k)) := fun i k h => by
    have e := added t s 0 i k h
    rwa [Nat.zero_add] at e
  have b48 : ∀ i, i + 384 ≤ n → body48 (f i) = some (f (i + 384)) := fun i hi => by
    show body48 ⟨_, i / 8, i / 8⟩ = some ⟨Bytes.xorAt t 0 (Bytes.slice s 0 ((i + 384) / 8)), (i + 384) / 8, (i + 384) / 8⟩
    rw [h48 _ _ _ (by rw [hl]; omega) (by omega), had _ _ (by omega), show (i + 384) / 8 = i / 8 + 48 by omega]
  have b16 : ∀ i, i + 128 ≤ n → body16 (f i) = some (f (i + 128)) := fun i hi => by
    show body16 ⟨_, i / 8, i / 8⟩ = some ⟨Bytes.xorAt t 0 (Bytes.slice s 0 ((i + 128) / 8)), (i + 128) / 8, (i + 128) / 8⟩
    rw [h16 _ _ _ (by rw [hl]; omega) (by omega), had _ _ (by omega), show (i + 128) / 8 = i / 8 + 16 by omega]
  have b4 : ∀ i, i + 32 ≤ n → addWord s (f i) = some (f (i + 32)) := fun i hi => by
    show addWord s ⟨_, i / 8, i / 8⟩ = some ⟨Bytes.xorAt t 0 (Bytes.slice s 0 ((i + 32) / 8)), (i + 32) / 8, (i + 32) / 8⟩
    rw [addWord_ok _ _ _ _ (by rw [hl]; omega) (by omega), had _ _ (by omega), show (i + 32) / 8 = i / 8 + 4 by omega]
  have b1 : ∀ i, i + 8 ≤ n → addOne s (f i) = some (f (i + 8)) := fun i hi => by
    show addOne s ⟨_, i / 8, i / 8⟩ = some ⟨Bytes.xorAt t 0 (Bytes.slice s 0 ((i + 8) / 8)), (i + 8) / 8, (i + 8) / 8⟩
    rw [addOne_ok _ _ _ _ (by rw [hl]; omega) (by omega), had _ _ (by omega), show (i + 8) / 8 = i / 8 + 1 by omega]
  have f0 : f 0 = ⟨t, 0, 0⟩ := by
    show (⟨Bytes.xorAt t 0 [], _, _⟩ : Wr) = _
    rw [Bytes.xorAt_nil]
  have fn : ∀ m, m % 8 = n % 8 → m / 8 = n / 8 → (f m).st = Bytes.xorAt t 0 (Bytes.slice s 0 (n / 8)) := fun m _ h2 => by
    show Bytes.xorAt t 0 (Bytes.slice s 0 (m / 8)) = _
    rw [h2]
  have fd : ∀ m, n % 8 = 0 → m % 8 = 0 → m = 0 → (f (n - m)).st = Bytes.xorAt t 0 (Bytes.slice s 0 (n / 8)) := fun m _ _ h => by
    rw [h, Nat.sub_zero]
  unfold addIsWith
  rw [← f0, show (48 * 8) = 384 from rfl, show (16 * 8) = 128 from rfl, show 4 * 8 = 32 from rfl,
    blockLoop_eq 384 (by decide) _ f n h32 b48 (2 ^ 32) n 0 h32 (by omega), Option.bind_eq_bind, Option.bind_some]
  dsimp only
  rw [add_sub32 (Nat.mod_lt _ (by decide)) (by decide)]
  by_cases c1 : n % 384 = 0
  · rw [if_pos c1, if_pos (by omega), fd _ (by omega) (by omega) c1]
  rw [if_neg c1, blockLoop_eq 128 (by decide) _ f n h32 b16 (2 ^ 32) (n % 384) (n - n % 384) (by omega) (by omega), Option.bind_some]
  dsimp only
  rw [add_sub32 (Nat.mod_lt _ (by decide)) (by decide)]
  by_cases c2 : n % 384 % 128 = 0
  · rw [if_pos c2, if_pos (by omega), fd _ (by omega) (by omega) c2]
  rw [if_neg c2, blockLoop_eq 32 (by decide) _ f n h32 b4 (2 ^ 32) (n % 384 % 128) (n - n % 384 % 128) (by omega) (by omega),
    Option.bind_some]
  dsimp only
  rw [add_sub32 (Nat.mod_lt _ (by decide)) (by decide)]
  by_cases c3 : n % 384 % 128 % 32 = 0
  · rw [if_pos c3, if_pos (by omega), fd _ (by omega) (by omega) c3]
  rw [if_neg c3, blockLoop_eq 8 (by decide) _ f n h32 b1 (2 ^ 32) (n % 384 % 128 % 32) (n - n % 384 % 128 % 32) (by omega) (by omega),
    Option.bind_some]
  dsimp only
  rw [add_sub32 (Nat.mod_lt _ (by decide)) (by decide), show n % 384 % 128 % 32 % 8 = n % 8 by omega]
  by_cases c4 : n % 8 = 0
  · rw [if_pos c4, if_pos c4, c4, Nat.sub_zero]
  · rw [if_neg c4, if_neg c4]
    show addBits s ⟨Bytes.xorAt t 0 (Bytes.slice s 0 ((n - n % 8) / 8)), (n - n % 8) / 8, (n - n % 8) / 8⟩ _ = _
    rw [show (n - n % 8) / 8 = n / 8 by omega]

theorem addIs_run (t s : Bytes) (n : Nat) (ht : (n + 7) / 8 ≤ t.length) (hs : (n + 7) / 8 ≤ s.length) (h32 : n < 2 ^ 32) :
    addIs t s n = if n % 8 = 0 then some (Bytes.xorAt t 0 (Bytes.slice s 0 (n / 8)))
      else addBits s ⟨Bytes.xorAt t 0 (Bytes.slice s 0 (n / 8)), n / 8, n / 8⟩ (n % 8) :=
  addIsWith_run (addBlock s) (add4Words s) t s n ht hs h32 (addBlock_ok' s) (add4Words_ok s)

theorem addIs_eq (t s : Bytes) (n : Nat) (ht : (n + 7) / 8 ≤ t.length) (hs : (n + 7) / 8 ≤ s.length) (h32 : n < 2 ^ 32) :
    addIs t s n = Farfalle.addIs t s n := by
  rw [addIs_run t s n ht hs h32, Farfalle.addIs_eq t s n ht hs, slice_zero, xorAt_front _ _ _ (by omega) (by omega)]
  by_cases h : n % 8 = 0
  · rw [if_pos h, if_neg (by omega)]
  rw [if_neg h, if_pos h]
  have hx : (Bytes.xor (t.take (n / 8)) (s.take (n / 8))).length = n / 8 := by rw [Bytes.length_xor, List.length_take, List.length_take]; omega
  unfold addBits
  dsimp only
  have e1 : ldrb (Bytes.xor (t.take (n / 8)) (s.take (n / 8)) ++ t.drop (n / 8)) (n / 8) = t[n / 8]? := by
    rw [ldrb, List.getElem?_append_right (by omega), hx, Nat.sub_self, List.getElem?_drop, Nat.add_zero]
  rw [e1, ldrb, List.getElem?_eq_getElem (by omega), List.getElem?_eq_getElem (by omega)]
  simp only [Option.bind_eq_bind, Option.bind_some]
  rw [maskByte _ _ _ (Nat.mod_lt _ (by decide)), strb, if_pos (by rw [List.length_append, hx, List.length_drop]; omega)]
  refine congrArg some ?_
  rw [List.set_append_right _ _ (by omega), hx, Nat.sub_self, List.append_assoc, List.drop_eq_getElem_cons (by omega : n / 8 < t.length)]
  rfl

end XoodooArm
