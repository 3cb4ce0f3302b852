import Verif.Proofs.KeccakNeon
import Verif.Proofs.XoodooArmBytes

/-!
Access to the bytes of the state in the ARMv7-A NEON assembly of Keccak-p[1600].
-/

namespace KeccakNeon

open X86 (mixOf outOf mixOf_add outOf_add mixOf_eq outOf_eq slice_one wr8_ok)
open Armv8Asm (setAt_mix slice_zero)
open XoodooArm (sub32 add32 blockLoop_eq tailLoop_eq ld_ok ldrb_ok bytesOfWord_mix bytesOfWord_out addOne addOne_ok added overwriteOne extractOne
  extractAddOne unlessZero unlessZero_eq strb Wr)
open XoodooPlanes (storeWord_eq)

theorem stages_eq {σ : Type} (lane byte : σ → Option σ) (f : Nat → σ) (len : Nat) (hlen : len < 2 ^ 32)
    (h8 : ∀ i, i + 8 ≤ len → lane (f i) = some (f (i + 8))) (h1 : ∀ i, i + 1 ≤ len → byte (f i) = some (f (i + 1))) :
    stages lane byte (f 0) len = some (f len) := by
  unfold stages
  rw [blockLoop_eq 8 (by decide) lane f len hlen h8 (2 ^ 32) len 0 (by omega) (by omega), Option.bind_eq_bind, Option.bind_some]
  dsimp only
  have e : sub32 (len % 8) 8 = 2 ^ 32 - 8 + len % 8 := by unfold sub32; omega
  rw [e]
  by_cases h : len % 8 = 0
  · rw [if_pos (by omega), h, Nat.sub_zero]
  · rw [if_neg (by omega), show add32 (2 ^ 32 - 8 + len % 8) 7 = len % 8 - 1 by unfold add32; omega]
    exact tailLoop_eq byte f len hlen h1 (2 ^ 32) (len % 8 - 1) (len - len % 8) (by omega) (by omega)

theorem addLane_ok (d : Bytes) (st : Bytes) (a j : Nat) (h : a + 8 ≤ st.length) (hd : j + 8 ≤ d.length) :
    addLane d ⟨st, a, j⟩ = some ⟨Bytes.xorAt st a (Bytes.slice d j 8), a + 8, j + 8⟩ := by
  unfold addLane
  dsimp only
  rw [ld_ok st a (by omega), ld_ok d j (by omega), ld_ok st (a + 4) (by omega), ld_ok d (j + 4) (by omega)]
  simp only [Option.bind_eq_bind, Option.bind_some]
  rw [storeWord_eq _ _ _ (by omega)]
  simp only [Option.bind_some]
  rw [storeWord_eq _ _ _ (by rw [Bytes.length_setAt]; omega)]
  simp only [Option.bind_some, bytesOfWord_mix]
  have hm : ∀ n, (mixOf st d a j n).length = n := fun n => by simp [mixOf]
  have e := Bytes.setAt_append st a (mixOf st d a j 4) (mixOf st d (a + 4) (j + 4) 4)
  rw [hm 4, mixOf_add] at e
  rw [e, setAt_mix _ _ _ _ _ hd]

theorem addBytes_eq (s d : Bytes) (hs : s.length = 200) (o len : Nat) (h : o + len ≤ 200) (hd : len ≤ d.length) :
    addBytes s d o len = some (Bytes.xorAt s o (d.take len)) := by
  have hl : ∀ i, (Bytes.xorAt s o (Bytes.slice d 0 i)).length = 200 := fun i => by rw [Bytes.length_xorAt, hs]
  have e := stages_eq (addLane d) (addOne d) (fun i => ⟨Bytes.xorAt s o (Bytes.slice d 0 i), o + i, i⟩) len (by omega)
    (fun i hi => by rw [addLane_ok _ _ _ _ (by rw [hl]; omega) (by omega), added _ _ _ _ _ (by omega), Nat.add_assoc])
    (fun i hi => by rw [addOne_ok _ _ _ _ (by rw [hl]; omega) (by omega), added _ _ _ _ _ (by omega), Nat.add_assoc])
  rw [show Bytes.slice d 0 0 = [] from rfl, Bytes.xorAt_nil, Nat.add_zero] at e
  unfold addBytes
  rw [e, Option.bind_eq_bind, Option.bind_some, slice_zero]

theorem overwriteBytes_eq (s d : Bytes) (hs : s.length = 200) (o len : Nat) (h : o + len ≤ 200) (hd : len ≤ d.length) :
    overwriteBytes s d o len = some (Bytes.setAt s o (d.take len)) := by
  have key : ∀ k i, i + k ≤ len → Bytes.setAt (Bytes.setAt s o (Bytes.slice d 0 i)) (o + i) (Bytes.slice d i k) =
      Bytes.setAt s o (Bytes.slice d 0 (i + k)) := fun k i hi => by
    have e := Bytes.setAt_append s o (Bytes.slice d 0 i) (Bytes.slice d i k)
    rw [Bytes.length_slice_of_le (by omega)] at e
    rw [e, ← Relaned.slice_append d 0 i k, Nat.zero_add]
  have hl : ∀ i, (Bytes.setAt s o (Bytes.slice d 0 i)).length = 200 := fun i => by rw [Bytes.length_setAt, hs]
  have e := stages_eq (overwriteLane d) (overwriteOne d) (fun i => ⟨Bytes.setAt s o (Bytes.slice d 0 i), o + i, i⟩) len (by omega)
    (fun i hi => by
      unfold overwriteLane
      dsimp only
      rw [ld_ok d i (by omega), ld_ok d (i + 4) (by omega)]
      simp only [Option.bind_eq_bind, Option.bind_some]
      rw [storeWord_eq _ _ _ (by rw [hl]; omega), bytesOfWord_out, outOf_eq _ _ _ (by omega), key 4 i (by omega)]
      simp only [Option.bind_some]
      rw [storeWord_eq _ _ _ (by rw [hl]; omega), bytesOfWord_out, outOf_eq _ _ _ (by omega), Nat.add_assoc o i 4, key 4 (i + 4) (by omega)]
      rfl)
    (fun i hi => by
      unfold overwriteOne
      dsimp only
      rw [ldrb_ok _ _ (by omega)]
      simp only [Option.bind_eq_bind, Option.bind_some]
      have w := wr8_ok .mov (Bytes.setAt s o (Bytes.slice d 0 i)) (o + i) (d.getD i 0) (by rw [hl]; omega)
      rw [← slice_one d i (by omega)] at w
      rw [← key 1 i hi]
      exact congrArg (·.bind fun st => some (⟨st, o + i + 1, i + 1⟩ : Wr)) w)
  rw [show Bytes.slice d 0 0 = [] from rfl, Bytes.setAt_nil, Nat.add_zero] at e
  unfold overwriteBytes
  rw [e, Option.bind_eq_bind, Option.bind_some, slice_zero]

/-- Zeroes written behind zeroes. -/
theorem zeroes (s : Bytes) (k i : Nat) : Bytes.setAt (Bytes.setAt s 0 (List.replicate i 0)) i (List.replicate k 0) =
    Bytes.setAt s 0 (List.replicate (i + k) 0) := by
  have e := Bytes.setAt_append s 0 (List.replicate i 0) (List.replicate k 0)
  rwa [List.length_replicate, Nat.zero_add, List.replicate_append_replicate] at e

theorem vstmZero_ok (n : Nat) (s : Bytes) (i : Nat) (h4 : i % 4 = 0) (h : i + 8 * n ≤ s.length) :
    vstmZero n (Bytes.setAt s 0 (List.replicate i 0)) i = some (Bytes.setAt s 0 (List.replicate (i + 8 * n) 0)) := by
  rw [vstmZero, if_pos ⟨h4, by rw [Bytes.length_setAt]; exact h⟩, zeroes]

/-- The loop over lanes; the pointer is always a multiple of 8. -/
theorem zeroLanes_eq (s : Bytes) : ∀ (fuel n i : Nat), n < fuel → 0 < n → n < 2 ^ 32 → 8 * i + 8 * n ≤ s.length →
    XoodooArm.zeroLoop (vstmZero 1) 8 fuel (Bytes.setAt s 0 (List.replicate (8 * i) 0)) (8 * i) n =
      some (Bytes.setAt s 0 (List.replicate (8 * i + 8 * n) 0), 8 * i + 8 * n) := by
  intro fuel
  induction fuel with
  | zero => intro n i hf; omega
  | succ fuel ih =>
    intro n i hf h0 h32 hi
    obtain ⟨n, rfl⟩ : ∃ m, n = m + 1 := ⟨n - 1, by omega⟩
    rw [XoodooArm.zeroLoop, vstmZero_ok 1 s (8 * i) (by omega) (by omega), Option.bind_eq_bind, Option.bind_some, XoodooArm.sub32_eq (by omega) h32,
      Nat.add_sub_cancel]
    by_cases h : n = 0
    · rw [if_neg (by omega), h]
    · rw [if_pos h, show 8 * i + 8 * 1 = 8 * (i + 1) by omega,
        ih n (i + 1) (by omega) (by omega) (by omega) (by omega), show 8 * (i + 1) + 8 * n = 8 * i + 8 * (n + 1) by omega]

theorem overwriteWithZeroes_eq (s : Bytes) (hs : s.length = 200) (n : Nat) (h : n ≤ 200) :
    overwriteWithZeroes s n = some (Bytes.setAt s 0 (List.replicate n 0)) := by
  have hl : ∀ i, (Bytes.setAt s 0 (List.replicate i (0 : Byte))).length = 200 := fun i => by rw [Bytes.length_setAt, hs]
  have e1 : unlessZero (vstmZero 1) 8 s 0 (n / 8) = some (Bytes.setAt s 0 (List.replicate (8 * (n / 8)) 0), 8 * (n / 8)) := by
    unfold unlessZero
    by_cases hz : n / 8 = 0
    · rw [if_pos hz, hz, Nat.mul_zero, List.replicate_zero, Bytes.setAt_nil]
    · rw [if_neg hz]
      have e := zeroLanes_eq s (2 ^ 32) (n / 8) 0 (by omega) (by omega) (by omega) (by omega)
      rw [Nat.mul_zero, List.replicate_zero, Bytes.setAt_nil, Nat.zero_add] at e
      exact e
  have e2 := unlessZero_eq (fun st r0 => strb st r0 0) 1 s (fun i hi => by
    rw [← zeroes s 1 i]
    exact wr8_ok .mov (Bytes.setAt s 0 (List.replicate i 0)) i 0 (by rw [hl]; omega)) (n % 8) (8 * (n / 8)) (by omega) (by omega)
  unfold overwriteWithZeroes
  rw [e1, Option.bind_eq_bind, Option.bind_some, e2, Option.bind_some, show 8 * (n / 8) + 1 * (n % 8) = n by omega]

theorem init_eq (s : Bytes) (hs : s.length = 200) : KeccakNeon.init s = some (List.replicate 200 0) := by
  unfold KeccakNeon.init
  have e0 := vstmZero_ok 8 s 0 (by decide) (by omega)
  rw [List.replicate_zero, Bytes.setAt_nil] at e0
  rw [e0, Option.bind_eq_bind, Option.bind_some, vstmZero_ok 8 s (0 + 8 * 8) (by decide) (by omega), Option.bind_some,
    vstmZero_ok 8 s (0 + 8 * 8 + 8 * 8) (by decide) (by omega), Option.bind_some,
    vstmZero_ok 1 s (0 + 8 * 8 + 8 * 8 + 8 * 8) (by decide) (by omega)]
  congr 1
  apply Plane512.setAt_all
  rw [hs, List.length_replicate]

theorem extractBytes_eq (s : Bytes) (hs : s.length = 200) (o len : Nat) (h : o + len ≤ 200) :
    extractBytes s o len = some (Bytes.slice s o len) := by
  have e := stages_eq (extractLane s) (extractOne s) (fun i => ⟨outOf s o i, o + i⟩) len (by omega)
    (fun i hi => by
      unfold extractLane
      dsimp only
      rw [ld_ok _ _ (by omega), ld_ok _ _ (by omega)]
      simp only [Option.bind_eq_bind, Option.bind_some]
      rw [bytesOfWord_out, bytesOfWord_out, outOf_add, Nat.add_assoc o i 4, outOf_add]
      rfl)
    (fun i hi => by
      unfold extractOne
      dsimp only
      rw [ldrb_ok _ _ (by omega)]
      simp only [Option.bind_eq_bind, Option.bind_some]
      rw [show [s.getD (o + i) 0] = outOf s (o + i) 1 from rfl, outOf_add, Nat.add_assoc])
  rw [show outOf s o 0 = [] from rfl, Nat.add_zero] at e
  unfold extractBytes
  rw [e, Option.bind_eq_bind, Option.bind_some, outOf_eq _ _ _ (by omega)]

theorem extractAndAddBytes_eq (s d : Bytes) (hs : s.length = 200) (o len : Nat) (h : o + len ≤ 200) (hd : len ≤ d.length) :
    extractAndAddBytes s d o len = some (Bytes.xor (d.take len) (Bytes.slice s o len)) := by
  have key := fun i k => mixOf_add s d o 0 i k
  simp only [Nat.zero_add] at key
  have e := stages_eq (extractAddLane s d) (extractAddOne s d) (fun i => ⟨mixOf s d o 0 i, o + i, i⟩) len (by omega)
    (fun i hi => by
      unfold extractAddLane
      dsimp only
      rw [ld_ok s (o + i) (by omega), ld_ok d i (by omega), ld_ok s (o + i + 4) (by omega), ld_ok d (i + 4) (by omega)]
      simp only [Option.bind_eq_bind, Option.bind_some]
      rw [bytesOfWord_mix, bytesOfWord_mix, key, Nat.add_assoc o i 4, key]
      rfl)
    (fun i hi => by
      unfold extractAddOne
      dsimp only
      rw [ldrb_ok _ _ (by omega), ldrb_ok _ _ (by omega)]
      simp only [Option.bind_eq_bind, Option.bind_some]
      rw [show [s.getD (o + i) 0 ^^^ d.getD i 0] = mixOf s d (o + i) i 1 from rfl, key, Nat.add_assoc])
  rw [show mixOf s d o 0 0 = [] from rfl, Nat.add_zero] at e
  unfold extractAndAddBytes
  rw [e, Option.bind_eq_bind, Option.bind_some, mixOf_eq _ _ _ _ (by omega) hd]

theorem addByte_eq (s : Bytes) (hs : s.length = 200) (b : Byte) (o : Nat) (ho : o < 200) : addByte s b o = some (Bytes.xorAt s o [b]) := by
  unfold addByte
  rw [ldrb_ok _ _ (by omega)]
  exact wr8_ok .xor s o b (by omega)

end KeccakNeon
