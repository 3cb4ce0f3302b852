import Verif.Model.KeccakArmv6m
import Verif.Proofs.KeccakArm32Bytes

/-! ## the functions on bytes of the ARMv6-M assembly -/

namespace KeccakP1600.Arm6

open XoodooArm (sub32 sub32_eq ldrb strb ldrb_ok)
open Arm32 (armv7m evens odds Wr Rd)

/-! ### Bit interleaving -/

theorem evens_low (x : Word) : ∀ j : Fin 32, ((evens x ||| (evens x >>> 8)) <<< 16 >>> 16).getLsbD j.val =
    (decide (j.val < 16) && x.getLsbD (2 * j.val)) := by
  intro j
  fin_cases j <;> simp [evens, BitVec.getLsbD_ushiftRight, BitVec.getLsbD_shiftLeft]

theorem odds_high (x : Word) : ∀ j : Fin 32, (odds x >>> 16 <<< 16).getLsbD j.val =
    (decide (16 ≤ j.val) && x.getLsbD (2 * (j.val - 16) + 1)) := by
  intro j
  fin_cases j <;> simp [odds, BitVec.getLsbD_ushiftRight, BitVec.getLsbD_shiftLeft]

theorem to_eq (x0 x1 : Word) : toBitInterleaving addBytesMasks x0 x1 = Inplace32.toBitInterleaving x0 x1 := by
  have h : toBitInterleaving addBytesMasks x0 x1 =
      (((evens x0 ||| (evens x0 >>> 8)) <<< 16 >>> 16) ||| ((evens x1 ||| (evens x1 >>> 8)) <<< 16),
        (odds x0 >>> 16) ||| (odds x1 >>> 16 <<< 16)) := rfl
  rw [h]
  apply Prod.ext
  · apply BitVec.eq_of_getLsbD_eq; intro i hi
    simp only
    rw [BitVec.getLsbD_or, evens_low x0 ⟨i, hi⟩, Arm32.evens_high x1 ⟨i, hi⟩]
    simp only [Inplace32.toBitInterleaving]
    rw [Inplace32.getLsbD_lows _ _ _ hi]
    by_cases h : i < 16
    · rw [if_pos h, Inplace32.getLsbD_prepareTo _ _ hi, if_pos h]
      simp [h, show ¬ 16 ≤ i by omega]
    · rw [if_neg h, Inplace32.getLsbD_prepareTo _ _ (by omega), if_pos (by omega)]
      simp [h, show 16 ≤ i by omega]
  · apply BitVec.eq_of_getLsbD_eq; intro i hi
    simp only
    rw [BitVec.getLsbD_or, Arm32.odds_low x0 ⟨i, hi⟩, odds_high x1 ⟨i, hi⟩]
    simp only [Inplace32.toBitInterleaving]
    rw [Inplace32.getLsbD_highs _ _ _ hi]
    by_cases h : i < 16
    · rw [if_pos h, Inplace32.getLsbD_prepareTo _ _ (by omega), if_neg (by omega)]
      simp [h, show ¬ 16 ≤ i by omega]
    · rw [if_neg h, Inplace32.getLsbD_prepareTo _ _ hi, if_neg h]
      simp [h, show 16 ≤ i by omega]

theorem to_eq' (x0 x1 : Word) : toBitInterleaving overwriteBytesMasks x0 x1 = Inplace32.toBitInterleaving x0 x1 :=
  to_eq x0 x1

/-- as in the ARMv7-M assembly -/
theorem to_add (x0 x1 : Word) (w : Word × Word) :
    ((toBitInterleaving addBytesMasks x0 x1).1 ^^^ w.1, (toBitInterleaving addBytesMasks x0 x1).2 ^^^ w.2) =
      Arm32.toBitInterleaving armv7m x0 x1 w.1 w.2 false := by
  rw [Arm32.toBitInterleaving_add, to_eq, BitVec.xor_comm, BitVec.xor_comm w.2]

theorem to_over (x0 x1 s0 s1 : Word) : toBitInterleaving overwriteBytesMasks x0 x1 =
    Arm32.toBitInterleaving armv7m x0 x1 s0 s1 true := by
  rw [Arm32.toBitInterleaving_over, to_eq']

theorem lows (x : Word) : x <<< 16 >>> 16 = x &&& (0x0000FFFF : Word) := by
  apply BitVec.eq_of_getLsbD_eq; intro i hi
  have := Inplace32.mask_low ⟨i, hi⟩
  simp only at this
  rw [BitVec.getLsbD_and, this, BitVec.getLsbD_ushiftRight, BitVec.getLsbD_shiftLeft]
  by_cases h : i < 16
  · simp [h, show 16 + i < 32 by omega]
  · simp [h, show ¬ 16 + i < 32 by omega]

theorem highs (x : Word) : x >>> 16 <<< 16 = x &&& (0xFFFF0000 : Word) := by
  apply BitVec.eq_of_getLsbD_eq; intro i hi
  have := Inplace32.mask_high ⟨i, hi⟩
  simp only at this
  rw [BitVec.getLsbD_and, this, BitVec.getLsbD_shiftLeft, BitVec.getLsbD_ushiftRight]
  by_cases h : i < 16
  · simp [h]
  · simp [h, show 16 + (i - 16) = i by omega, hi, show 16 ≤ i by omega]

/-- a step of `fromBitInterleaving` -/
theorem fromStep_eq (x mask : Word) (n : Nat) : fromBitInterleavingStep x mask n =
    x ^^^ ((x ^^^ (x >>> n)) &&& mask) ^^^ (((x ^^^ (x >>> n)) &&& mask) <<< n) := by
  rw [fromBitInterleavingStep, BitVec.xor_comm (x >>> n) x]

/-- the four steps on a word -/
def fromSteps (k : FromMasks) (x : Word) : Word :=
  fromBitInterleavingStep (fromBitInterleavingStep (fromBitInterleavingStep (fromBitInterleavingStep x k.f0 8) k.f4 4) k.f8 2) k.f12 1

theorem from_eq (x0 x1 : Word) :
    fromBitInterleaving extractBytesMasks x0 x1 = Arm32.fromBitInterleaving armv7m x0 x1 := by
  have h : fromBitInterleaving extractBytesMasks x0 x1 =
      (fromSteps extractBytesMasks ((x0 <<< 16 >>> 16) ||| (x1 <<< 16)),
        fromSteps extractBytesMasks ((x1 >>> 16 <<< 16) ||| (x0 >>> 16))) := rfl
  rw [h, lows, highs, ← Arm32.bfi_lows, BitVec.or_comm, ← Arm32.bfc_highs]
  simp only [fromSteps, fromStep_eq]
  rfl

theorem from_eq' (x0 x1 : Word) :
    fromBitInterleaving extractAndAddBytesMasks x0 x1 = Arm32.fromBitInterleaving armv7m x0 x1 := from_eq x0 x1

/-! ### Buffers -/

theorem ldrBytes_eq (b : Bytes) (p : Nat) : ldrBytes b p = Arm32.ldrBuf b p := by
  unfold ldrBytes Arm32.ldrBuf
  by_cases h : p + 4 ≤ b.length
  · rw [if_pos h, ldrb_ok _ _ (by omega), ldrb_ok _ _ (by omega), ldrb_ok _ _ (by omega), ldrb_ok _ _ (by omega)]
    rfl
  · rw [if_neg h, show ldrb b (p + 3) = none from List.getElem?_eq_none (by omega)]
    cases ldrb b p <;> cases ldrb b (p + 1) <;> cases ldrb b (p + 2) <;> rfl

/-- both ways to read 8 bytes -/
theorem ldrBytes2_eq (b : Bytes) (p : Nat) : ldrBytes2 b p = (do
    let a ← Arm32.ldrBuf b p
    let c ← Arm32.ldrBuf b (p + 4)
    some (a, c)) := by
  rw [ldrBytes2, ldrBytes_eq, ldrBytes_eq]

theorem ldmBuf_eq (ad : Nat) (b : Bytes) (p : Nat) (h : (ad + p) % 4 = 0) : ldmBuf ad b p = (do
    let a ← Arm32.ldrBuf b p
    let c ← Arm32.ldrBuf b (p + 4)
    some (a, c)) := by
  rw [ldmBuf, if_neg (by omega)]

theorem unaligned_eq (a : Nat) : unaligned a = decide (a % 4 ≠ 0) := by
  have h : (BitVec.ofNat 32 a <<< 30 = (0 : Word)) ↔ a % 4 = 0 := by
    rw [← BitVec.toNat_inj, BitVec.toNat_shiftLeft, BitVec.toNat_ofNat, Nat.shiftLeft_eq]
    rw [show (0 : Word).toNat = 0 from rfl]
    omega
  by_cases h4 : a % 4 = 0
  · simp [unaligned, h.mpr h4, h4]
  · simp only [unaligned, bne, decide_not]
    rw [beq_eq_false_iff_ne.mpr (fun hc => h4 (h.mp hc))]
    simp [h4]

/-! ### Lanes -/

theorem addLanesLoop_eq (data : Bytes) (read : Nat → Option (Word × Word)) (k : Nat)
    (hr : ∀ p, p % 4 = k → read p = (do
      let a ← Arm32.ldrBuf data p
      let c ← Arm32.ldrBuf data (p + 4)
      some (a, c))) : ∀ (fuel : Nat) (st : Wr) (n : Nat), st.r1 % 4 = k →
    addLanesLoop read fuel st n = Arm32.addLanes armv7m data fuel st n := by
  intro fuel
  induction fuel with
  | zero => intro st n _; rfl
  | succ fuel ih =>
    intro st n hk
    simp only [addLanesLoop, Arm32.addLanes, hr _ hk, to_add, ldm, stm, Option.bind_eq_bind, Option.bind_assoc, Option.bind_some]
    congr 1; funext a
    congr 1; funext c
    congr 1; funext w
    congr 1; funext A
    rw [ih _ _ (show (st.r1 + 8) % 4 = k by omega)]

theorem addLanes_eq (ad : Nat) (data : Bytes) : addLanes ad data = Arm32.addLanes armv7m data (2 ^ 32) := by
  funext st n
  rw [addLanes, unaligned_eq]
  by_cases h : (ad + st.r1) % 4 = 0
  · rw [if_neg (by simp [h])]
    exact addLanesLoop_eq data _ (st.r1 % 4) (fun p hp => ldmBuf_eq ad data p (by omega)) _ st n rfl
  · rw [if_pos (by simp [h])]
    exact addLanesLoop_eq data _ (st.r1 % 4) (fun p _ => ldrBytes2_eq data p) _ st n rfl

theorem overwriteLanesLoop_eq (data : Bytes) (read : Nat → Option (Word × Word)) (k : Nat)
    (hr : ∀ p, p % 4 = k → read p = (do
      let a ← Arm32.ldrBuf data p
      let c ← Arm32.ldrBuf data (p + 4)
      some (a, c))) : ∀ (fuel : Nat) (st : Wr) (p n : Nat), st.r1 % 4 = k → n ≤ fuel → n < 2 ^ 32 → st.r0 = 8 * p →
    0 < n → 8 * (p + n) ≤ 200 → overwriteLanesLoop read fuel st n = Arm32.overwriteLanes armv7m data fuel st n := by
  intro fuel
  induction fuel with
  | zero => intro st p n _ _ _ _ _ _; rfl
  | succ fuel ih =>
    intro st p n hk hf hn h0 hp hw
    simp only [overwriteLanesLoop, Arm32.overwriteLanes, hr _ hk, stm, Option.bind_eq_bind, Option.bind_assoc, Option.bind_some]
    rw [sub32_eq (by omega) (by omega), h0, Arm32.ldrd_eq _ _ (by omega)]
    congr 1; funext a
    congr 1; funext c
    rw [Option.bind_some, to_over _ _ (st.A ⟨p * 2 + 0, by omega⟩) (st.A ⟨p * 2 + 1, by omega⟩)]
    congr 1; funext A
    by_cases h1 : n - 1 = 0
    · rw [if_neg (by omega), if_neg (by omega)]
    · rw [if_pos h1, if_pos h1,
        ih _ (p + 1) _ (show (st.r1 + 8) % 4 = k by omega) (by omega) (by omega) (by simp only; omega) (by omega) (by omega)]

theorem overwriteLanes_eq (ad : Nat) (data : Bytes) (st : Wr) (p n : Nat) (hn : n < 2 ^ 32) (h0 : st.r0 = 8 * p)
    (hp : 0 < n) (hw : 8 * (p + n) ≤ 200) : overwriteLanes ad data st n = Arm32.overwriteLanes armv7m data (2 ^ 32) st n := by
  rw [overwriteLanes, unaligned_eq]
  by_cases h : (ad + st.r1) % 4 = 0
  · rw [if_neg (by simp [h])]
    exact overwriteLanesLoop_eq data _ (st.r1 % 4) (fun p hp => ldmBuf_eq ad data p (by omega)) _ st p n rfl (by omega) hn h0 hp hw
  · rw [if_pos (by simp [h])]
    exact overwriteLanesLoop_eq data _ (st.r1 % 4) (fun p _ => ldrBytes2_eq data p) _ st p n rfl (by omega) hn h0 hp hw

theorem strBytes_eq (w : Word) : strBytes w = Ref32.bytes w := by
  have h : ∀ v : Word, (v &&& 0xFF).setWidth 8 = v.setWidth 8 := by
    intro v
    apply BitVec.eq_of_getLsbD_eq; intro i hi
    have h8 : ∀ i : Fin 8, (0xFF : Word).getLsbD i.val = true := by decide
    have := h8 ⟨i, hi⟩
    simp only at this
    rw [BitVec.getLsbD_setWidth, BitVec.getLsbD_setWidth, BitVec.getLsbD_and, this, Bool.and_true]
  have h2 : w >>> 8 >>> 8 = w >>> 16 := (BitVec.shiftRight_add w 8 8).symm
  have h3 : w >>> 16 >>> 8 = w >>> 24 := (BitVec.shiftRight_add w 16 8).symm
  simp only [strBytes, Ref32.bytes, h, h2, h3]

theorem extractLanesLoop_eq (write : Nat → Word × Word → Option Bytes) (k : Nat)
    (hr : ∀ p w, p % 4 = k → write p w = some (Ref32.bytes w.1 ++ Ref32.bytes w.2)) (A : Words) :
    ∀ (fuel : Nat) (st : Rd) (n : Nat), st.r1 % 4 = k →
    extractLanesLoop write A fuel st n = Arm32.extractLanes armv7m A fuel st n := by
  intro fuel
  induction fuel with
  | zero => intro st n _; rfl
  | succ fuel ih =>
    intro st n hk
    simp only [extractLanesLoop, Arm32.extractLanes, hr _ _ hk, from_eq, ldm, Option.bind_eq_bind, Option.bind_some]
    congr 1; funext w
    rw [ih _ _ (show (st.r1 + 8) % 4 = k by omega)]

theorem extractLanes_eq (ad : Nat) (A : Words) : extractLanes ad A = Arm32.extractLanes armv7m A (2 ^ 32) := by
  funext st n
  rw [extractLanes, unaligned_eq]
  by_cases h : (ad + st.r1) % 4 = 0
  · rw [if_neg (by simp [h])]
    exact extractLanesLoop_eq _ (st.r1 % 4) (fun p w hp => by rw [stmBuf, if_neg (by omega)]) A _ st n rfl
  · rw [if_pos (by simp [h])]
    exact extractLanesLoop_eq _ (st.r1 % 4) (fun p w _ => by rw [strBytes_eq, strBytes_eq]) A _ st n rfl

/-- the bytes of an exclusive or -/
theorem addUnaligned4_eq (input : Bytes) (p : Nat) (w : Word) : addUnaligned4 input p w = (do
    let i ← Arm32.ldrBuf input p
    some (Ref32.bytes (w ^^^ i))) := by
  unfold addUnaligned4 Arm32.ldrBuf
  by_cases h : p + 4 ≤ input.length
  · rw [if_pos h, ldrb_ok _ _ (by omega), ldrb_ok _ _ (by omega), ldrb_ok _ _ (by omega), ldrb_ok _ _ (by omega)]
    simp only [Option.bind_eq_bind, Option.bind_some]
    rw [← strBytes_eq]
    simp only [strBytes, Ref32.word]
    generalize input.getD p 0 = a
    generalize input.getD (p + 1) 0 = b
    generalize input.getD (p + 2) 0 = c
    generalize input.getD (p + 3) 0 = d
    congr 1
    simp only [List.cons.injEq, and_true]
    refine ⟨?_, ?_, ?_, ?_⟩ <;>
    · apply BitVec.eq_of_getLsbD_eq; intro i hi
      obtain ⟨j, rfl⟩ : ∃ j : Fin 8, i = j.val := ⟨⟨i, hi⟩, rfl⟩
      fin_cases j <;> simp [BitVec.getLsbD_ushiftRight, BitVec.getLsbD_shiftLeft, Bool.xor_comm]
  · rw [if_neg h, show ldrb input (p + 3) = none from List.getElem?_eq_none (by omega)]
    cases ldrb input p <;> cases ldrb input (p + 1) <;> cases ldrb input (p + 2) <;> rfl

theorem extractAndAddLanesLoop_eq (input : Bytes) (write : Nat → Word × Word → Option Bytes) (k : Nat)
    (hr : ∀ p w, p % 4 = k → write p w = (do
      let a ← Arm32.ldrBuf input p
      let c ← Arm32.ldrBuf input (p + 4)
      some (Ref32.bytes (w.1 ^^^ a) ++ Ref32.bytes (w.2 ^^^ c)))) (A : Words) :
    ∀ (fuel : Nat) (st : Rd) (n : Nat), st.r1 % 4 = k →
    extractAndAddLanesLoop write A fuel st n = Arm32.extractAndAddLanes armv7m A input fuel st n := by
  intro fuel
  induction fuel with
  | zero => intro st n _; rfl
  | succ fuel ih =>
    intro st n hk
    simp only [extractAndAddLanesLoop, Arm32.extractAndAddLanes, hr _ _ hk, from_eq', ldm, Option.bind_eq_bind, Option.bind_assoc,
      Option.bind_some]
    congr 1; funext w
    congr 1; funext a
    congr 1; funext c
    rw [ih _ _ (show (st.r1 + 8) % 4 = k by omega)]

theorem addUnaligned_eq (input : Bytes) (p : Nat) (w : Word × Word) : addUnaligned input p w = (do
    let a ← Arm32.ldrBuf input p
    let c ← Arm32.ldrBuf input (p + 4)
    some (Ref32.bytes (w.1 ^^^ a) ++ Ref32.bytes (w.2 ^^^ c))) := by
  rw [addUnaligned, addUnaligned4_eq, addUnaligned4_eq]
  cases Arm32.ldrBuf input p <;> cases Arm32.ldrBuf input (p + 4) <;> rfl

theorem extractAndAddLanes_eq (ad out : Nat) (A : Words) (input : Bytes) :
    extractAndAddLanes ad out A input = Arm32.extractAndAddLanes armv7m A input (2 ^ 32) := by
  funext st n
  rw [extractAndAddLanes, unaligned_eq, unaligned_eq]
  by_cases h : (ad + st.r1) % 4 = 0
  · rw [if_neg (by simp [h])]
    by_cases h2 : (out + st.r1) % 4 = 0
    · rw [if_neg (by simp [h2])]
      refine extractAndAddLanesLoop_eq input _ (st.r1 % 4) (fun p w hp => ?_) A _ st n rfl
      rw [addAligned, if_neg (by omega)]
      have ho : ¬ (out + p) % 4 ≠ 0 := by omega
      simp only [stmBuf, if_neg ho]
    · rw [if_pos (by simp [h2])]
      exact extractAndAddLanesLoop_eq input _ (st.r1 % 4) (fun p w _ => addUnaligned_eq input p w) A _ st n rfl
  · rw [if_pos (by simp [h])]
    exact extractAndAddLanesLoop_eq input _ (st.r1 % 4) (fun p w _ => addUnaligned_eq input p w) A _ st n rfl

/-! ### Bytes in a lane -/

theorem addBytesInLane_eq (data : Bytes) : addBytesInLane data = Arm32.addBytesInLane armv7m data := by
  funext st r2 r3
  simp only [addBytesInLane, Arm32.addBytesInLane, to_add, ldm, stm]

theorem extractBytesInLane_eq (A : Words) : extractBytesInLane A = Arm32.extractBytesInLane armv7m A := by
  funext st r2 r3
  simp only [extractBytesInLane, Arm32.extractBytesInLane, from_eq, ldm]

theorem extractAndAddBytesInLane_eq (A : Words) (input : Bytes) :
    extractAndAddBytesInLane A input = Arm32.extractAndAddBytesInLane armv7m A input := by
  funext st r2 r3
  simp only [extractAndAddBytesInLane, Arm32.extractAndAddBytesInLane, from_eq', ldm]

/-- bytes placed among zeroes exclusive-or-ed to bytes in which their place is zero -/
theorem xor_bytes (s : Bytes) (hs : s.length = 8) (o : Nat) (d : Bytes) :
    wordOfBytes (Bytes.setAt (List.replicate 8 0) o d) ^^^ wordOfBytes (Bytes.setAt s o (List.replicate d.length 0)) =
      wordOfBytes (Bytes.setAt s o d) := by
  apply BitVec.eq_of_getLsbD_eq; intro i hi
  rw [BitVec.getLsbD_xor, getLsbD_wordOfBytes _ ⟨i, hi⟩, getLsbD_wordOfBytes _ ⟨i, hi⟩, getLsbD_wordOfBytes _ ⟨i, hi⟩]
  have hg : s[i / 8]? = some (s[i / 8]'(by omega)) := List.getElem?_eq_getElem (by omega)
  have hz : (List.replicate 8 (0 : Byte))[i / 8]? = some 0 := by rw [List.getElem?_replicate, if_pos (by omega)]
  simp only [List.getD_eq_getElem?_getD, Bytes.getElem?_setAt, hg, hz, Option.map_some, Option.getD_some,
    List.length_replicate]
  by_cases h1 : o ≤ i / 8 ∧ i / 8 < o + d.length
  · rw [if_pos h1, if_pos h1, if_pos h1, List.getElem?_replicate, if_pos (by omega)]
    simp
  · rw [if_neg h1, if_neg h1, if_neg h1]
    simp

theorem overwriteBytesInLane_eq (data : Bytes) (st : Wr) (p o n : Nat) (hr : st.r0 = 8 * p) (h0 : 0 < n) (h8 : o + n ≤ 8)
    (hw : 8 * p + o + n ≤ 200) (hd : st.r1 + n ≤ data.length) :
    ∃ st', overwriteBytesInLane data st o n = some st' ∧
      view32 st'.A = Bytes.setAt (view32 st.A) (8 * p + o) (Bytes.slice data st.r1 n) ∧ st'.r0 = 8 * (p + 1) ∧ st'.r1 = st.r1 + n := by
  have hp : p < 25 := by omega
  have hs : (Bytes.slice data st.r1 n).length = n := Bytes.length_slice_of_le (by omega)
  rw [overwriteBytesInLane, Arm32.maskLoop_eq _ _ _ _ h0 (by omega) (by omega), Option.bind_eq_bind, Option.bind_some,
    Arm32.copyLoop_eq data _ _ _ _ _ (by simp) h0 (by omega) (by omega) h8 hd, Option.bind_eq_bind, Option.bind_some,
    hr, ldm, Arm32.ldrd_eq _ _ hp, Option.bind_eq_bind, Option.bind_some, stm, Arm32.strd_eq _ _ hp, Option.bind_eq_bind,
    Option.bind_some]
  refine ⟨_, rfl, ?_, rfl, rfl⟩
  rw [Nat.mul_comm 8 p]
  refine view32_set hp (by rw [hs]; exact h8) ?_
  simp only
  have e := xor_bytes (bytesOfWord (lanes st.A ⟨p, hp⟩)) (length_bytesOfWord _) o (Bytes.slice data st.r1 n)
  have hm := Arm32.mask_over ⟨o, by omega⟩ ⟨n, by omega⟩ h8 h0
  simp only at hm
  have hb := Inplace32.words_spec (Bytes.setAt (List.replicate 8 0) o (Bytes.slice data st.r1 n))
  simp only [Inplace32.words] at hb
  rw [lanes_put _ _ hp, to_eq', il_xor, il_and, hm, ← e, hs, ← Inplace32.and_mask _ _ _ h8, hb, Arm32.keep,
    show il (st.A ⟨p * 2 + 0, by omega⟩) (st.A ⟨p * 2 + 1, by omega⟩) = lanes st.A ⟨p, hp⟩ from rfl]

/-! ### The functions on bytes -/

theorem bytesFn_eq {σ : Type} (inLane : σ → Nat → Nat → Option σ) (lanes : σ → Nat → Option σ) (st : σ) (o n : Nat) :
    bytesFn inLane lanes st o n = Arm32.bytesFn inLane lanes st o n := by
  have h : ∀ r : Nat, (if r / 8 = 0 then r else r % 8) = r % 8 := fun r => by
    by_cases h : r / 8 = 0
    · rw [if_pos h]; omega
    · rw [if_neg h]
  simp only [bytesFn, Arm32.bytesFn, h]

theorem addBytes_eq (ad : Nat) : addBytes ad = Arm32.addBytes armv7m := by
  funext A data o n
  rw [addBytes, Arm32.addBytes, bytesFn_eq, addBytesInLane_eq, addLanes_eq]

theorem overwriteBytes_eq (ad : Nat) (A : Words) (data : Bytes) (o n : Nat) (h : o + n ≤ 200) (hd : n ≤ data.length) :
    ∃ A', overwriteBytes ad A data o n = some A' ∧ view32 A' = Bytes.setAt (view32 A) o (data.take n) := by
  obtain ⟨st, e, v⟩ := Arm32.write_eq Bytes.setAt Bytes.setAt_nil Bytes.setAt_append data (overwriteBytesInLane data)
    (overwriteLanes ad data) (fun st p o n hr h0 h8 hw hd => overwriteBytesInLane_eq data st p o n hr h0 h8 hw hd)
    (fun st p n hr h0 hw hd => by
      rw [overwriteLanes_eq ad data st p n (by omega) hr h0 hw]
      exact Arm32.overwriteLanes_eq data _ st p n (by omega) (by omega) hr h0 hw hd) A o n h hd
  exact ⟨st.A, by rw [overwriteBytes, bytesFn_eq, e]; rfl, v⟩

theorem addByte_eq : addByte = Arm32.addByte armv7m := by
  funext A b o
  simp only [addByte, Arm32.addByte, to_add, ldm, stm]

theorem extractBytes_eq (ad : Nat) : extractBytes ad = Arm32.extractBytes armv7m := by
  funext A o n
  rw [extractBytes, Arm32.extractBytes, bytesFn_eq, extractBytesInLane_eq, extractLanes_eq]

theorem extractAndAddBytes_eq (ad out : Nat) : extractAndAddBytes ad out = Arm32.extractAndAddBytes armv7m := by
  funext A input o n
  rw [extractAndAddBytes, Arm32.extractAndAddBytes, bytesFn_eq, extractAndAddBytesInLane_eq, extractAndAddLanes_eq]

theorem implements6m (ad out : Nat) : (access ad out).Implements 200 (fun _ => True) view32 :=
  Access.implements_of length_view32 (access ad out)
    (fun A d o n h hd => by
      have := Arm32.addBytes_eq A d o n h hd
      rwa [← addBytes_eq ad] at this)
    (overwriteBytes_eq ad)
    (fun A o n h => by
      have := Arm32.extractBytes_eq A o n h
      rwa [← extractBytes_eq out] at this)
    (fun A i o n h hi => by
      have := Arm32.extractAndAddBytes_eq A i o n h hi
      rwa [← extractAndAddBytes_eq ad out] at this)
    Inplace32.view32_init
    (fun A b o h => by
      have := Arm32.addByte_eq A b o h
      rwa [← addByte_eq] at this)
    Arm32.overwriteWithZeroes_eq

end KeccakP1600.Arm6
