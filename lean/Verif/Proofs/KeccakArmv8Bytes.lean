import Verif.Proofs.KeccakArmv8Rounds

/-!
Access to the bytes of the state in the ARMv8-A implementation in assembly.
-/

namespace Armv8Asm

open KeccakP1600 (Lane wordOfBytes bytesOfWord)
open X86

/-! ### The loops -/

theorem add_sub32 {a b : Nat} (h : a < b) (hb : b < 2 ^ 32) : add32 (sub32 a b) b = a := by unfold sub32 add32; omega

/-- `f i` is what the bodies have made of `f 0` after `i` of the `len` bytes. -/
theorem blockLoop_eq {σ : Type} (k : Nat) (hk : 0 < k) (body : σ → Option σ) (f : Nat → σ) (len : Nat) (hlen : len < 2 ^ 32)
    (hb : ∀ i, i + k ≤ len → body (f i) = some (f (i + k))) :
    ∀ (fuel n i : Nat), n < fuel → i + n = len → blockLoop k body fuel (f i) n = some (f (len - n % k), sub32 (n % k) k) := by
  intro fuel
  induction fuel with
  | zero => intro n i hf; omega
  | succ fuel ih =>
    intro n i hf hi
    rw [blockLoop]
    by_cases h : n < k
    · rw [if_pos h, Nat.mod_eq_of_lt h, show len - n = i by omega]
    · rw [if_neg h, hb i (by omega), Option.bind_eq_bind, Option.bind_some, sub32_eq (by omega) (by omega), ih (n - k) (i + k) (by omega) (by omega),
        ← Nat.mod_eq_sub_mod (by omega)]

theorem stages_eq {σ : Type} (lanes8 lane byte : σ → Option σ) (f : Nat → σ) (len : Nat) (hlen : len < 2 ^ 32)
    (h64 : ∀ i, i + 64 ≤ len → lanes8 (f i) = some (f (i + 64))) (h8 : ∀ i, i + 8 ≤ len → lane (f i) = some (f (i + 8)))
    (h1 : ∀ i, i + 1 ≤ len → byte (f i) = some (f (i + 1))) : stages lanes8 lane byte (f 0) len = some (f len) := by
  unfold stages
  by_cases h : len < 1
  · rw [if_pos h, show len = 0 by omega]
  · rw [if_neg h, blockLoop_eq 64 (by decide) lanes8 f len hlen h64 (2 ^ 32) len 0 (by omega) (by omega), Option.bind_eq_bind, Option.bind_some]
    dsimp only
    have a1 := Nat.mod_lt len (show 64 > 0 by decide)
    have a2 := Nat.mod_le len 64
    rw [add_sub32 a1 (by decide),
      blockLoop_eq 8 (by decide) lane f len hlen h8 (2 ^ 32) (len % 64) (len - len % 64) (by omega) (by omega), Option.bind_some]
    dsimp only
    rw [add_sub32 (by omega) (by decide),
      blockLoop_eq 1 (by decide) byte f len hlen h1 (2 ^ 32) (len % 64 % 8) (len - len % 64 % 8) (by omega) (by omega),
      Option.bind_some]
    dsimp only
    rw [Nat.mod_one, Nat.sub_zero]

/-! ### The bodies -/

theorem setAt_mix (m data : Bytes) (a j n : Nat) (hj : j + n ≤ data.length) :
    Bytes.setAt m a (mixOf m data a j n) = Bytes.xorAt m a (Bytes.slice data j n) := by
  have hl : (mixOf m data a j n).length = n := by simp [mixOf]
  have hl2 : (Bytes.slice data j n).length = n := Bytes.length_slice_of_le hj
  apply ext_getD (by simp)
  intro i hi
  rw [Bytes.length_setAt] at hi
  refine (getD_opAt .mov m a (mixOf m data a j n) i hi).trans ?_
  refine Eq.trans ?_ (getD_opAt .xor m a (Bytes.slice data j n) i hi).symm
  rw [hl, hl2]
  split
  · rename_i h
    show (mixOf m data a j n).getD (i - a) 0 = m.getD i 0 ^^^ _
    rw [getD_slice _ _ _ _ (by omega), mixOf, List.getD_eq_getElem?_getD, List.getElem?_map, List.getElem?_range (by omega)]
    simp only [Option.map_some, Option.getD_some]
    rw [show a + (i - a) = i by omega]
  · rfl

theorem words_mix (m data : Bytes) (a j : Nat) : (words4 (eor4
    ((wordOfBytes (m.drop a), wordOfBytes (m.drop (a + 32))), (wordOfBytes (m.drop (a + 8)), wordOfBytes (m.drop (a + 40))),
      (wordOfBytes (m.drop (a + 16)), wordOfBytes (m.drop (a + 48))), (wordOfBytes (m.drop (a + 24)), wordOfBytes (m.drop (a + 56))))
    ((wordOfBytes (data.drop j), wordOfBytes (data.drop (j + 32))), (wordOfBytes (data.drop (j + 8)), wordOfBytes (data.drop (j + 40))),
      (wordOfBytes (data.drop (j + 16)), wordOfBytes (data.drop (j + 48))), (wordOfBytes (data.drop (j + 24)), wordOfBytes (data.drop (j + 56)))))).flatMap
      bytesOfWord = mixOf m data a j 64 := by
  simp only [words4, eor4, eor, List.flatMap_cons, List.flatMap_nil, bytesOfWord_mix, List.append_nil]
  have h := fun k n => mixOf_add m data (a + k) (j + k) 8 n
  simp only [Nat.add_assoc] at h
  rw [h 48 8, h 40, h 32, h 24, h 16, h 8]
  exact mixOf_add m data a j 8 56

theorem words_out (m : Bytes) (a : Nat) : (words4
    ((wordOfBytes (m.drop a), wordOfBytes (m.drop (a + 32))), (wordOfBytes (m.drop (a + 8)), wordOfBytes (m.drop (a + 40))),
      (wordOfBytes (m.drop (a + 16)), wordOfBytes (m.drop (a + 48))), (wordOfBytes (m.drop (a + 24)), wordOfBytes (m.drop (a + 56))))).flatMap
      bytesOfWord = outOf m a 64 := by
  simp only [words4, List.flatMap_cons, List.flatMap_nil, bytesOfWord_out, List.append_nil]
  have h := fun k n => outOf_add m (a + k) 8 n
  simp only [Nat.add_assoc] at h
  rw [h 48 8, h 40, h 32, h 24, h 16, h 8]
  exact outOf_add m a 8 56

/-- The pieces of the data and of the state. -/
theorem slice_zero (d : Bytes) (n : Nat) : Bytes.slice d 0 n = d.take n := by rw [Bytes.slice, List.drop_zero]

theorem addBytes_eq (s d : Bytes) (hs : s.length = 200) (o len : Nat) (h : o + len ≤ 200) (hd : len ≤ d.length) :
    addBytes s d o len = some (Bytes.xorAt s o (d.take len)) := by
  have key : ∀ k i, i + k ≤ len → Bytes.xorAt (Bytes.xorAt s o (Bytes.slice d 0 i)) (o + i) (Bytes.slice d i k) =
      Bytes.xorAt s o (Bytes.slice d 0 (i + k)) := fun k i hi => by
    have e := Bytes.xorAt_append s o (Bytes.slice d 0 i) (Bytes.slice d i k)
    rw [Bytes.length_slice_of_le (by omega)] at e
    rw [e, ← Relaned.slice_append d 0 i k, Nat.zero_add]
  have hl : ∀ i, (Bytes.xorAt s o (Bytes.slice d 0 i)).length = 200 := fun i => by rw [Bytes.length_xorAt, hs]
  have e := stages_eq (add8Lanes d) (addLane d) (addOne d) (fun i => ⟨Bytes.xorAt s o (Bytes.slice d 0 i), o + i, i⟩) len (by omega)
    (fun i hi => by
      unfold add8Lanes
      dsimp only
      rw [ld4_eq _ _ (by rw [hl]; omega), ld4_eq _ _ (by omega)]
      simp only [Option.bind_eq_bind, Option.bind_some]
      rw [st4_eq _ _ _ (by rw [hl]; omega), words_mix, setAt_mix _ _ _ _ _ (by omega), key 64 i hi]
      rfl)
    (fun i hi => by
      unfold addLane
      dsimp only
      rw [rd64_ok _ _ (by rw [hl]; omega), rd64_ok _ _ (by omega)]
      simp only [Option.bind_eq_bind, Option.bind_some]
      rw [wr64_ok _ _ _ (by rw [hl]; omega), bytesOfWord_mix, setAt_mix _ _ _ _ _ (by omega), key 8 i hi]
      rfl)
    (fun i hi => by
      unfold addOne
      dsimp only
      rw [rd8_ok _ _ (by rw [hl]; omega), rd8_ok _ _ (by omega)]
      simp only [Option.bind_eq_bind, Option.bind_some]
      have w := wr8_ok .xor (Bytes.xorAt s o (Bytes.slice d 0 i)) (o + i) (d.getD i 0) (by rw [hl]; omega)
      rw [← slice_one d i (by omega)] at w
      rw [← key 1 i hi]
      exact congrArg (·.bind fun st => some (⟨st, o + i + 1, i + 1⟩ : Wr)) w)
  rw [show Bytes.slice d 0 0 = [] from rfl, Bytes.xorAt_nil, Nat.add_zero] at e
  unfold addBytes
  rw [e, Option.bind_eq_bind, Option.bind_some, slice_zero]

theorem overwriteBytes_eq (s d : Bytes) (hs : s.length = 200) (o len : Nat) (h : o + len ≤ 200) (hd : len ≤ d.length) :
    overwriteBytes s d o len = some (Bytes.setAt s o (d.take len)) := by
  have key : ∀ k i, i + k ≤ len → Bytes.setAt (Bytes.setAt s o (Bytes.slice d 0 i)) (o + i) (Bytes.slice d i k) =
      Bytes.setAt s o (Bytes.slice d 0 (i + k)) := fun k i hi => by
    have e := Bytes.setAt_append s o (Bytes.slice d 0 i) (Bytes.slice d i k)
    rw [Bytes.length_slice_of_le (by omega)] at e
    rw [e, ← Relaned.slice_append d 0 i k, Nat.zero_add]
  have hl : ∀ i, (Bytes.setAt s o (Bytes.slice d 0 i)).length = 200 := fun i => by rw [Bytes.length_setAt, hs]
  have e := stages_eq (overwrite8Lanes d) (overwriteLane d) (overwriteOne d) (fun i => ⟨Bytes.setAt s o (Bytes.slice d 0 i), o + i, i⟩) len (by omega)
    (fun i hi => by
      unfold overwrite8Lanes
      dsimp only
      rw [ld4_eq _ _ (by omega)]
      simp only [Option.bind_eq_bind, Option.bind_some]
      rw [st4_eq _ _ _ (by rw [hl]; omega), words_out, outOf_eq _ _ _ (by omega), key 64 i hi]
      rfl)
    (fun i hi => by
      unfold overwriteLane
      dsimp only
      rw [rd64_ok _ _ (by omega)]
      simp only [Option.bind_eq_bind, Option.bind_some]
      rw [wr64_ok _ _ _ (by rw [hl]; omega), bytesOfWord_out, outOf_eq _ _ _ (by omega), key 8 i hi]
      rfl)
    (fun i hi => by
      unfold overwriteOne
      dsimp only
      rw [rd8_ok _ _ (by omega)]
      simp only [Option.bind_eq_bind, Option.bind_some]
      have w := wr8_ok .mov (Bytes.setAt s o (Bytes.slice d 0 i)) (o + i) (d.getD i 0) (by rw [hl]; omega)
      rw [← slice_one d i (by omega)] at w
      rw [← key 1 i hi]
      exact congrArg (·.bind fun st => some (⟨st, o + i + 1, i + 1⟩ : Wr)) w)
  rw [show Bytes.slice d 0 0 = [] from rfl, Bytes.setAt_nil, Nat.add_zero] at e
  unfold overwriteBytes
  rw [e, Option.bind_eq_bind, Option.bind_some, slice_zero]

theorem overwriteWithZeroes_eq (s : Bytes) (hs : s.length = 200) (n : Nat) (h : n ≤ 200) :
    overwriteWithZeroes s n = some (Bytes.setAt s 0 (List.replicate n 0)) := by
  have key : ∀ k i, Bytes.setAt (Bytes.setAt s 0 (List.replicate i 0)) i (List.replicate k 0) = Bytes.setAt s 0 (List.replicate (i + k) 0) := fun k i => by
    have e := Bytes.setAt_append s 0 (List.replicate i 0) (List.replicate k 0)
    rwa [List.length_replicate, Nat.zero_add, List.replicate_append_replicate] at e
  have hl : ∀ i, (Bytes.setAt s 0 (List.replicate i (0 : Byte))).length = 200 := fun i => by rw [Bytes.length_setAt, hs]
  have e := stages_eq zero8Lanes zeroLane zeroOne (fun i => ⟨Bytes.setAt s 0 (List.replicate i 0), i⟩) n (by omega)
    (fun i hi => by
      unfold zero8Lanes
      dsimp only
      rw [st4_eq _ _ _ (by rw [hl]; omega), show (words4 ((0, 0), (0, 0), (0, 0), (0, 0))).flatMap bytesOfWord = List.replicate 64 0 from by decide,
        key 64 i]
      rfl)
    (fun i hi => by
      unfold zeroLane
      dsimp only
      rw [wr64_ok _ _ _ (by rw [hl]; omega), show bytesOfWord 0 = List.replicate 8 0 from by decide, key 8 i]
      rfl)
    (fun i hi => by
      unfold zeroOne
      dsimp only
      have w := wr8_ok .mov (Bytes.setAt s 0 (List.replicate i 0)) i 0 (by rw [hl]; omega)
      rw [← key 1 i]
      exact congrArg (·.bind fun st => some (⟨st, i + 1⟩ : Oz)) w)
  rw [List.replicate_zero, Bytes.setAt_nil] at e
  unfold overwriteWithZeroes
  rw [e, Option.bind_eq_bind, Option.bind_some]

theorem extractBytes_eq (s : Bytes) (hs : s.length = 200) (o len : Nat) (h : o + len ≤ 200) :
    extractBytes s o len = some (Bytes.slice s o len) := by
  have e := stages_eq (extract8Lanes s) (extractLane s) (extractOne s) (fun i => ⟨outOf s o i, o + i⟩) len (by omega)
    (fun i hi => by
      unfold extract8Lanes
      dsimp only
      rw [ld4_eq _ _ (by omega)]
      simp only [Option.bind_eq_bind, Option.bind_some]
      rw [words_out, outOf_add, Nat.add_assoc])
    (fun i hi => by
      unfold extractLane
      dsimp only
      rw [rd64_ok _ _ (by omega)]
      simp only [Option.bind_eq_bind, Option.bind_some]
      rw [bytesOfWord_out, outOf_add, Nat.add_assoc])
    (fun i hi => by
      unfold extractOne
      dsimp only
      rw [rd8_ok _ _ (by omega)]
      simp only [Option.bind_eq_bind, Option.bind_some]
      rw [show [s.getD (o + i) 0] = outOf s (o + i) 1 from rfl, outOf_add, Nat.add_assoc])
  rw [show outOf s o 0 = [] from rfl, Nat.add_zero] at e
  unfold extractBytes
  rw [e, Option.bind_eq_bind, Option.bind_some, outOf_eq _ _ _ (by omega)]

theorem extractAndAddBytes_eq (s d : Bytes) (hs : s.length = 200) (o len : Nat) (h : o + len ≤ 200) (hd : len ≤ d.length) :
    extractAndAddBytes s d o len = some (Bytes.xor (d.take len) (Bytes.slice s o len)) := by
  have key := fun i k => mixOf_add s d o 0 i k
  simp only [Nat.zero_add] at key
  have e := stages_eq (extractAdd8Lanes s d) (extractAddLane s d) (extractAddOne s d) (fun i => ⟨mixOf s d o 0 i, o + i, i⟩) len (by omega)
    (fun i hi => by
      unfold extractAdd8Lanes
      dsimp only
      rw [ld4_eq _ _ (by omega), ld4_eq _ _ (by omega)]
      simp only [Option.bind_eq_bind, Option.bind_some]
      rw [words_mix, key, Nat.add_assoc])
    (fun i hi => by
      unfold extractAddLane
      dsimp only
      rw [rd64_ok _ _ (by omega), rd64_ok _ _ (by omega)]
      simp only [Option.bind_eq_bind, Option.bind_some]
      rw [bytesOfWord_mix, key, Nat.add_assoc])
    (fun i hi => by
      unfold extractAddOne
      dsimp only
      rw [rd8_ok _ _ (by omega), rd8_ok _ _ (by omega)]
      simp only [Option.bind_eq_bind, Option.bind_some]
      rw [show [s.getD (o + i) 0 ^^^ d.getD i 0] = mixOf s d (o + i) i 1 from rfl, key, Nat.add_assoc])
  rw [show mixOf s d o 0 0 = [] from rfl, Nat.add_zero] at e
  unfold extractAndAddBytes
  rw [e, Option.bind_eq_bind, Option.bind_some, mixOf_eq _ _ _ _ (by omega) hd]

theorem addByte_eq (s : Bytes) (hs : s.length = 200) (b : Byte) (o : Nat) (ho : o < 200) : addByte s b o = some (Bytes.xorAt s o [b]) := by
  unfold addByte
  rw [rd8_ok _ _ (by omega)]
  exact wr8_ok .xor s o b (by omega)

theorem init_eq (m : Bytes) (h : m.length = 200) : init m = some (List.replicate 200 0) := by
  unfold init
  simp only [Option.bind_eq_bind]
  rw [store_eq m h]
  decide +kernel

end Armv8Asm
