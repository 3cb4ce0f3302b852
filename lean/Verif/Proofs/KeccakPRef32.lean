import Verif.Proofs.BitInterleaving
import Verif.Proofs.ByteAccess

/-!
The 32-bit reference implementation of Keccak-p[1600]: through bit interleaving, each of its steps is the
corresponding step of the 64-bit reference implementation.
-/

namespace KeccakP1600.Ref32

/-! ## the conversions -/

theorem getLsbD_bit (w : Word) (i j : Nat) : ((w >>> i) &&& 1).getLsbD j = (decide (j = 0) && w.getLsbD i) := by
  have h1 : ∀ j, (1 : Word).getLsbD j = decide (j = 0) := by
    intro j
    by_cases h : j = 0
    · subst h; rfl
    · simp [h]
  rw [BitVec.getLsbD_and, BitVec.getLsbD_ushiftRight, h1]
  by_cases h : j = 0
  · subst h; simp
  · simp [h]

theorem getLsbD_bit_shift (w : Word) (i k j : Nat) (hj : j < 32) :
    (((w >>> i) &&& 1) <<< k).getLsbD j = (decide (j = k) && w.getLsbD i) := by
  rw [BitVec.getLsbD_shiftLeft, getLsbD_bit]
  by_cases h : j < k
  · have h' : ¬ j = k := by omega
    simp [h, h']
  · by_cases h' : j = k
    · subst h'; simp [hj]
    · have : ¬ (j - k = 0) := by omega
      simp [h', this]

/-- what the loop of `toBitInterleaving` has done after positions `a`, ..., `a + n - 1` -/
theorem to_loop (low high : Word) : ∀ (n a : Nat) (st : Word × Word), a + n ≤ 64 → ∀ j, j < 32 →
    let r := loopFrom (fun i (st : Word × Word) =>
      let inBit : Word := if i < 32 then (low >>> i) &&& 1 else (high >>> (i - 32)) &&& 1
      if i % 2 = 0 then (st.1 ||| (inBit <<< (i / 2)), st.2)
      else (st.1, st.2 ||| (inBit <<< ((i - 1) / 2)))) a n st
    r.1.getLsbD j = (st.1.getLsbD j || (decide (a ≤ 2 * j ∧ 2 * j < a + n) && (high ++ low : Lane).getLsbD (2 * j))) ∧
    r.2.getLsbD j = (st.2.getLsbD j ||
      (decide (a ≤ 2 * j + 1 ∧ 2 * j + 1 < a + n) && (high ++ low : Lane).getLsbD (2 * j + 1))) := by
  intro n
  induction n with
  | zero =>
    intro a st _ j _
    have e1 : ¬ (a ≤ 2 * j ∧ 2 * j < a + 0) := by omega
    have e2 : ¬ (a ≤ 2 * j + 1 ∧ 2 * j + 1 < a + 0) := by omega
    simp [loopFrom, e1, e2]
  | succ n ih =>
    intro a st ha j hj
    have hbit : ∀ k, ((if a < 32 then (low >>> a) &&& 1 else (high >>> (a - 32)) &&& 1) <<< k).getLsbD j
        = (decide (j = k) && (high ++ low : Lane).getLsbD a) := by
      intro k
      rw [getLsbD_append64]
      split <;> exact getLsbD_bit_shift _ _ _ _ hj
    rw [loopFrom]
    refine ⟨((ih (a + 1) _ (by omega) j hj).1).trans ?_, ((ih (a + 1) _ (by omega) j hj).2).trans ?_⟩
    · by_cases h : a % 2 = 0
      · simp only [h, if_true, BitVec.getLsbD_or, hbit]
        by_cases hja : j = a / 2
        · have e1 : a ≤ 2 * j ∧ 2 * j < a + (n + 1) := by omega
          have e2 : ¬ (a + 1 ≤ 2 * j ∧ 2 * j < a + 1 + n) := by omega
          have e3 : 2 * j = a := by omega
          simp only [hja, e1, e2, decide_true, decide_false, Bool.true_and, Bool.false_and, Bool.or_false]
          rw [← hja, e3]
          simp
        · have e : (a ≤ 2 * j ∧ 2 * j < a + (n + 1)) ↔ (a + 1 ≤ 2 * j ∧ 2 * j < a + 1 + n) := by omega
          simp only [hja, decide_false, Bool.false_and, Bool.or_false, e]
      · have e : (a ≤ 2 * j ∧ 2 * j < a + (n + 1)) ↔ (a + 1 ≤ 2 * j ∧ 2 * j < a + 1 + n) := by omega
        simp only [h, if_false, e]
    · by_cases h : a % 2 = 0
      · have e : (a ≤ 2 * j + 1 ∧ 2 * j + 1 < a + (n + 1)) ↔ (a + 1 ≤ 2 * j + 1 ∧ 2 * j + 1 < a + 1 + n) := by omega
        simp only [h, if_true, e]
      · simp only [h, if_false, BitVec.getLsbD_or, hbit]
        by_cases hja : j = (a - 1) / 2
        · have e1 : a ≤ 2 * j + 1 ∧ 2 * j + 1 < a + (n + 1) := by omega
          have e2 : ¬ (a + 1 ≤ 2 * j + 1 ∧ 2 * j + 1 < a + 1 + n) := by omega
          have e3 : 2 * j + 1 = a := by omega
          simp only [e1, e2, decide_true, decide_false, Bool.true_and, Bool.false_and, Bool.or_false, e3, ← hja]
          simp
        · have e : (a ≤ 2 * j + 1 ∧ 2 * j + 1 < a + (n + 1)) ↔ (a + 1 ≤ 2 * j + 1 ∧ 2 * j + 1 < a + 1 + n) := by omega
          simp only [hja, decide_false, Bool.false_and, Bool.or_false, e]

theorem toBitInterleaving_spec (low high : Word) :
    il (toBitInterleaving low high).1 (toBitInterleaving low high).2 = (high ++ low : Lane) := by
  apply BitVec.eq_of_getLsbD_eq; intro i hi
  have h := to_loop low high 64 0 (0, 0) (by omega) (i / 2) (by omega)
  rw [getLsbD_il _ _ _ hi]
  split
  · rename_i e
    refine h.1.trans ?_
    have e1 : 0 ≤ 2 * (i / 2) ∧ 2 * (i / 2) < 0 + 64 := by omega
    have e2 : 2 * (i / 2) = i := by omega
    simp [e2, hi]
  · rename_i e
    refine h.2.trans ?_
    have e2 : 2 * (i / 2) + 1 = i := by omega
    simp [e2, hi]

/-- what the loop of `fromBitInterleaving` has done after positions `a`, ..., `a + n - 1` -/
theorem from_loop (even odd : Word) : ∀ (n a : Nat) (st : Word × Word), a + n ≤ 64 → ∀ j, j < 32 →
    let r := loopFrom (fun i (st : Word × Word) =>
      let inBit : Word := if i % 2 = 0 then (even >>> (i / 2)) &&& 1 else (odd >>> ((i - 1) / 2)) &&& 1
      if i < 32 then (st.1 ||| (inBit <<< i), st.2)
      else (st.1, st.2 ||| (inBit <<< (i - 32)))) a n st
    r.1.getLsbD j = (st.1.getLsbD j || (decide (a ≤ j ∧ j < a + n) && (il even odd).getLsbD j)) ∧
    r.2.getLsbD j = (st.2.getLsbD j || (decide (a ≤ j + 32 ∧ j + 32 < a + n) && (il even odd).getLsbD (j + 32))) := by
  intro n
  induction n with
  | zero =>
    intro a st _ j _
    have e1 : ¬ (a ≤ j ∧ j < a + 0) := by omega
    have e2 : ¬ (a ≤ j + 32 ∧ j + 32 < a + 0) := by omega
    simp [loopFrom, e1, e2]
  | succ n ih =>
    intro a st ha j hj
    have hbit : ∀ k, ((if a % 2 = 0 then (even >>> (a / 2)) &&& 1 else (odd >>> ((a - 1) / 2)) &&& 1) <<< k).getLsbD j
        = (decide (j = k) && (il even odd).getLsbD a) := by
      intro k
      rw [getLsbD_il _ _ _ (by omega)]
      split
      · exact getLsbD_bit_shift _ _ _ _ hj
      · rw [getLsbD_bit_shift _ _ _ _ hj, show (a - 1) / 2 = a / 2 by omega]
    rw [loopFrom]
    refine ⟨((ih (a + 1) _ (by omega) j hj).1).trans ?_, ((ih (a + 1) _ (by omega) j hj).2).trans ?_⟩
    · by_cases h : a < 32
      · simp only [h, if_true, BitVec.getLsbD_or, hbit]
        by_cases hja : j = a
        · subst hja
          have e1 : j ≤ j ∧ j < j + (n + 1) := by omega
          have e2 : ¬ (j + 1 ≤ j ∧ j < j + 1 + n) := by omega
          simp [e2]
        · have e : (a ≤ j ∧ j < a + (n + 1)) ↔ (a + 1 ≤ j ∧ j < a + 1 + n) := by omega
          simp only [hja, decide_false, Bool.false_and, Bool.or_false, e]
      · have e : (a ≤ j ∧ j < a + (n + 1)) ↔ (a + 1 ≤ j ∧ j < a + 1 + n) := by omega
        simp only [h, if_false, e]
    · by_cases h : a < 32
      · have e : (a ≤ j + 32 ∧ j + 32 < a + (n + 1)) ↔ (a + 1 ≤ j + 32 ∧ j + 32 < a + 1 + n) := by omega
        simp only [h, if_true, e]
      · simp only [h, if_false, BitVec.getLsbD_or, hbit]
        by_cases hja : j = a - 32
        · have e1 : a ≤ j + 32 ∧ j + 32 < a + (n + 1) := by omega
          have e2 : ¬ (a + 1 ≤ j + 32 ∧ j + 32 < a + 1 + n) := by omega
          have e3 : j + 32 = a := by omega
          simp only [e1, e2, decide_true, decide_false, Bool.true_and, Bool.false_and, Bool.or_false, e3, ← hja]
          simp
        · have e : (a ≤ j + 32 ∧ j + 32 < a + (n + 1)) ↔ (a + 1 ≤ j + 32 ∧ j + 32 < a + 1 + n) := by omega
          simp only [hja, decide_false, Bool.false_and, Bool.or_false, e]

theorem fromBitInterleaving_spec (even odd : Word) :
    ((fromBitInterleaving even odd).2 ++ (fromBitInterleaving even odd).1 : Lane) = il even odd := by
  apply BitVec.eq_of_getLsbD_eq; intro i hi
  rw [getLsbD_append64]
  split
  · rename_i e
    refine (from_loop even odd 64 0 (0, 0) (by omega) i e).1.trans ?_
    simp [hi]
  · rename_i e
    refine (from_loop even odd 64 0 (0, 0) (by omega) (i - 32) (by omega)).2.trans ?_
    have e2 : i - 32 + 32 = i := by omega
    simp [e2, hi]

/-! ## rotation -/

theorem getLsbD_rol32 (a : Word) (o : Nat) (ho : o < 32) (z : Nat) (hz : z < 32) :
    (rol32 a o).getLsbD z = a.getLsbD ((32 - o + z) % 32) := by
  unfold rol32
  split
  · rename_i h
    simp only [BitVec.getLsbD_xor, BitVec.getLsbD_shiftLeft, BitVec.getLsbD_ushiftRight, hz, decide_true, Bool.true_and]
    by_cases h1 : z < o
    · have : (32 - o + z) % 32 = 32 - o + z := by omega
      rw [this]; simp [h1]
    · have : (32 - o + z) % 32 = z - o := by omega
      rw [this]
      simp only [h1, decide_false, Bool.not_false, Bool.true_and]
      rw [BitVec.getLsbD_of_ge a (32 - o + z) (by omega), Bool.xor_false]
  · rename_i h
    have : o = 0 := by omega
    subst this
    congr 1; omega

theorem il_rol64 (e o : Word) (n : Nat) (hn : n < 63) :
    il (rol64 e o n).1 (rol64 e o n).2 = Ref.rol64 (il e o) n := by
  apply BitVec.eq_of_getLsbD_eq; intro i hi
  have hv : ((⟨i, hi⟩ : Fin 64) - Fin.ofNat 64 n).val = (64 - n + i) % 64 := by
    simp [Fin.sub_def, Fin.ofNat, Nat.mod_eq_of_lt (show n < 64 by omega)]
  have := getLsbD_rol64 (il e o) n (by omega) ⟨i, hi⟩
  rw [hv] at this
  rw [show (Ref.rol64 (il e o) n).getLsbD i = _ from this, getLsbD_il _ _ _ hi, getLsbD_il _ _ _ (by omega)]
  have hi2 : i / 2 < 32 := by omega
  by_cases h : n % 2 = 0 <;> by_cases h2 : i % 2 = 0
  · simp only [rol64, h, h2, if_true]
    rw [if_pos (by omega), getLsbD_rol32 _ _ (by omega) _ hi2,
      show (64 - n + i) % 64 / 2 = (32 - n / 2 + i / 2) % 32 by omega]
  · simp only [rol64, h, h2, if_true, if_false]
    rw [if_neg (by omega), getLsbD_rol32 _ _ (by omega) _ hi2,
      show (64 - n + i) % 64 / 2 = (32 - n / 2 + i / 2) % 32 by omega]
  · simp only [rol64, h, h2, if_true, if_false]
    rw [if_neg (by omega), getLsbD_rol32 _ _ (by omega) _ hi2,
      show (64 - n + i) % 64 / 2 = (32 - (n + 1) / 2 + i / 2) % 32 by omega]
  · simp only [rol64, h, h2, if_false]
    rw [if_pos (by omega), getLsbD_rol32 _ _ (by omega) _ hi2,
      show (64 - n + i) % 64 / 2 = (32 - (n - 1) / 2 + i / 2) % 32 by omega]

/-! ## step mappings -/

theorem lanes_lane (A : Words) (x y : Fin 5) :
    lanes A (lane x y) = il (A (index x.val y.val 0)) (A (index x.val y.val 1)) := by
  fin_cases x <;> fin_cases y <;> rfl

theorem theta_word (A : Words) : ∀ (x y : Fin 5) (z : Fin 2),
    theta A (index x.val y.val z) = A (index x.val y.val z) ^^^ thetaD A x.val z := by
  intro x y z
  fin_cases x <;> fin_cases y <;> fin_cases z <;> rfl

theorem thetaC_eq (A : Words) (x : Fin 5) : il (thetaC A x.val 0) (thetaC A x.val 1) = Ref.thetaC (lanes A) x.val := by
  rw [KeccakP1600.thetaC_eq]
  simp only [thetaC, loopFrom, il_xor, il_zero, lanes_lane]
  rfl

theorem thetaD_eq (A : Words) (x : Fin 5) : il (thetaD A x.val 0) (thetaD A x.val 1) = Ref.thetaD (lanes A) x.val := by
  have h1 : (x.val + 1) % 5 = (x + 1 : Fin 5).val := by fin_cases x <;> rfl
  have h4 : (x.val + 4) % 5 = (x - 1 : Fin 5).val := by fin_cases x <;> rfl
  unfold thetaD Ref.thetaD
  rw [h1, h4, ← thetaC_eq, ← thetaC_eq, ← il_rol64 _ _ _ (by omega), ← il_xor]
  rfl

theorem lanes_theta (A : Words) : lanes (theta A) = Ref.theta (lanes A) := by
  funext i
  refine forall_fin25 (p := fun i => lanes (theta A) i = Ref.theta (lanes A) i) (fun x y => ?_) i
  rw [theta_lane, lanes_lane, theta_word, theta_word, il_xor, thetaD_eq, lanes_lane]

theorem rho_word (t : List Nat) (A : Words) : ∀ (x y : Fin 5),
    (rho t A (index x.val y.val 0), rho t A (index x.val y.val 1)) =
      rol64 (A (index x.val y.val 0)) (A (index x.val y.val 1)) (t.getD (lane x y).val 0) := by
  intro x y
  fin_cases x <;> fin_cases y <;> rfl

theorem lanes_rho (A : Words) : lanes (rho rhoOffsets A) = Ref.rho Ref.rhoOffsets (lanes A) := by
  funext i
  refine forall_fin25 (p := fun i => lanes (rho rhoOffsets A) i = Ref.rho Ref.rhoOffsets (lanes A) i)
    (fun x y => ?_) i
  have h := rho_word rhoOffsets A x y
  have hb : ∀ i : Fin 25, rhoOffsets.getD i.val 0 < 63 := by decide
  rw [rho_lane, lanes_lane, lanes_lane, show Ref.rhoOffsets = rhoOffsets from rfl, ← il_rol64 _ _ _ (hb _), ← h]

set_option maxRecDepth 4000 in
theorem pi_word (A : Words) : ∀ (x y : Fin 5) (z : Fin 2),
    pi A (index x.val y.val z) = A (index (x + 3 * y).val x.val z) := by
  intro x y z
  fin_cases x <;> fin_cases y <;> fin_cases z <;> rfl

theorem lanes_pi (A : Words) : lanes (pi A) = Ref.pi (lanes A) := by
  funext i
  refine forall_fin25 (p := fun i => lanes (pi A) i = Ref.pi (lanes A) i) (fun x y => ?_) i
  rw [pi_lane, lanes_lane, lanes_lane, pi_word, pi_word]

theorem chi_word (A : Words) : ∀ (x y : Fin 5) (z : Fin 2), chi A (index x.val y.val z) =
    A (index x.val y.val z) ^^^ (~~~ A (index (x + 1).val y.val z) &&& A (index (x + 2).val y.val z)) := by
  intro x y z
  fin_cases x <;> fin_cases y <;> fin_cases z <;> rfl

theorem lanes_chi (A : Words) : lanes (chi A) = Ref.chi (lanes A) := by
  funext i
  refine forall_fin25 (p := fun i => lanes (chi A) i = Ref.chi (lanes A) i) (fun x y => ?_) i
  rw [chi_lane]
  simp only [lanes_lane, chi_word, il_xor, il_and, il_not]

/-- the constants, lane by lane -/
theorem constants_eq : ∀ i : Fin 25, il (roundConstants.getD i.val (0, 0)).1 (roundConstants.getD i.val (0, 0)).2 =
    Ref.roundConstants.getD i.val 0 := by decide +kernel

theorem lanes_iota (A : Words) (i : Nat) (hi : i < 24) :
    lanes (iota roundConstants A i) = Ref.iota Ref.roundConstants (lanes A) i := by
  have hc := constants_eq ⟨i, by omega⟩
  simp only at hc
  unfold iota Ref.iota
  rw [← hc]
  generalize roundConstants.getD i (0, 0) = c
  have := lanes_put A 0 (by omega) (A (index 0 0 0) ^^^ c.1) (A (index 0 0 1) ^^^ c.2)
  refine Eq.trans ?_ (this.trans ?_)
  · rfl
  · rw [il_xor]; rfl

theorem lanes_round (A : Words) (i : Nat) (hi : i < 24) : lanes (round roundConstants rhoOffsets A i) =
    Ref.round Ref.roundConstants Ref.rhoOffsets (lanes A) i := by
  rw [round, Ref.round, lanes_iota _ _ hi, lanes_chi, lanes_pi, lanes_rho, lanes_theta]

theorem lanes_onWords (A : Words) (nr : Nat) (hnr : nr ≤ 24) : lanes (onWords roundConstants rhoOffsets A nr) =
    Ref.onWords Ref.roundConstants Ref.rhoOffsets (lanes A) nr := by
  have key : ∀ n a A, a + n ≤ 24 → lanes (loopFrom (fun i A => round roundConstants rhoOffsets A i) a n A) =
      loopFrom (fun i A => Ref.round Ref.roundConstants Ref.rhoOffsets A i) a n (lanes A) := by
    intro n
    induction n with
    | zero => intro a A _; rfl
    | succ n ih => intro a A h; rw [loopFrom, loopFrom, ih _ _ (by omega), lanes_round _ _ (by omega)]
  exact key nr _ A (by omega)

/-! ## byte access -/

theorem guard_true {p o len : Nat} (hp : p < 25) (ho : o < 8) (h : o + len ≤ 8) : guard p o len = true := by
  simp [guard, hp, ho, h]

theorem addBytesInLane_eq (A : Words) (p : Nat) (d : Bytes) (o len : Nat) (h0 : 0 < len) (h1 : o + len ≤ 8)
    (h2 : p * 8 + o + len ≤ 200) (hd : len ≤ d.length) :
    ∃ A', addBytesInLane A p d o len = some A' ∧ view32 A' = Bytes.xorAt (view32 A) (p * 8 + o) (d.take len) := by
  have hp : p < 25 := by omega
  refine ⟨_, by
    unfold addBytesInLane
    rw [if_pos (guard_true hp (by omega) h1), SnP.readBuf_some hd]
    simp only [Option.bind_eq_bind, Option.bind_some]
    rw [getWord_some (show p * 2 + 0 < 50 by omega), Option.bind_some, setWord_some (show p * 2 + 0 < 50 by omega),
      Option.bind_some, getWord_some (show p * 2 + 1 < 50 by omega), Option.bind_some,
      setWord_some (show p * 2 + 1 < 50 by omega)], ?_⟩
  refine view32_xor hp (by simp; omega) ?_
  rw [lanes_put _ _ hp]
  rw [← append_word, ← toBitInterleaving_spec]
  generalize toBitInterleaving _ _ = t
  rw [lanes, ← il_xor]
  simp [put]

theorem laneBytes_eq (A : Words) (p : Nat) (hp : p < 25) : laneBytes A p = some (bytesOfWord (lanes A ⟨p, hp⟩)) := by
  rw [laneBytes, getWord_some (show p * 2 < 50 by omega), getWord_some (show p * 2 + 1 < 50 by omega)]
  simp only [Option.bind_eq_bind, Option.bind_some, bytes_append, fromBitInterleaving_spec]
  rfl

theorem extractBytesInLane_eq (A : Words) (p o len : Nat) (h0 : 0 < len) (h1 : o + len ≤ 8)
    (h2 : p * 8 + o + len ≤ 200) :
    extractBytesInLane A p o len = some (Bytes.slice (view32 A) (p * 8 + o) len) := by
  have hp : p < 25 := by omega
  rw [extractBytesInLane, if_pos (guard_true hp (by omega) h1), laneBytes_eq A p hp]
  simp only [Option.bind_eq_bind, Option.bind_some]
  rw [view32, slice_bytesOfLanes _ ⟨p, hp⟩ _ _ h1]

theorem overwriteBytesInLane_eq (A : Words) (p : Nat) (d : Bytes) (o len : Nat) (h0 : 0 < len) (h1 : o + len ≤ 8)
    (h2 : p * 8 + o + len ≤ 200) (hd : len ≤ d.length) :
    ∃ A', overwriteBytesInLane A p d o len = some A' ∧
      view32 A' = Bytes.setAt (view32 A) (p * 8 + o) (d.take len) := by
  have hp : p < 25 := by omega
  refine ⟨_, by
    unfold overwriteBytesInLane
    rw [if_pos (guard_true hp (by omega) h1), extractBytesInLane, if_pos (guard_true hp (by omega) (by omega)),
      laneBytes_eq A p hp, SnP.readBuf_some hd]
    simp only [Option.bind_eq_bind, Option.bind_some]
    rw [setWord_some (show p * 2 + 0 < 50 by omega), Option.bind_some, setWord_some (show p * 2 + 1 < 50 by omega)], ?_⟩
  refine view32_set hp (by simp; omega) ?_
  rw [lanes_put _ _ hp, toBitInterleaving_spec, append_word]
  rfl

theorem extractAndAddBytesInLane_eq (A : Words) (p : Nat) (d : Bytes) (o len : Nat) (h0 : 0 < len)
    (h1 : o + len ≤ 8) (h2 : p * 8 + o + len ≤ 200) (hd : len ≤ d.length) :
    extractAndAddBytesInLane A p d o len = some (Bytes.xor (d.take len) (Bytes.slice (view32 A) (p * 8 + o) len)) := by
  have hp : p < 25 := by omega
  rw [extractAndAddBytesInLane, if_pos (guard_true hp (by omega) h1), extractBytesInLane_eq A p o len h0 h1 h2,
    SnP.readBuf_some hd]
  rfl

theorem addBytes_eq (A : Words) (d : Bytes) (o len : Nat) (h : o + len ≤ 200) (hd : len ≤ d.length) :
    ∃ A', addBytes A d o len = some A' ∧ view32 A' = Bytes.xorAt (view32 A) o (d.take len) := by
  obtain ⟨A', e1, e2⟩ := Relaned.writeLoop_eq (width := 200) (view := view32) (by omega : 0 < 8) addBytesInLane_eq
    Bytes.xorAt_nil Bytes.xorAt_append (len + 1) A (o / 8) (o % 8) d len (by omega) (by omega) (by omega) hd
  exact ⟨A', e1, by rw [e2, show o / 8 * 8 + o % 8 = o by omega]⟩

theorem overwriteBytes_eq (A : Words) (d : Bytes) (o len : Nat) (h : o + len ≤ 200) (hd : len ≤ d.length) :
    ∃ A', overwriteBytes A d o len = some A' ∧ view32 A' = Bytes.setAt (view32 A) o (d.take len) := by
  obtain ⟨A', e1, e2⟩ := Relaned.writeLoop_eq (width := 200) (view := view32) (by omega : 0 < 8)
    overwriteBytesInLane_eq Bytes.setAt_nil Bytes.setAt_append (len + 1) A (o / 8) (o % 8) d len (by omega) (by omega)
    (by omega) hd
  exact ⟨A', e1, by rw [e2, show o / 8 * 8 + o % 8 = o by omega]⟩

theorem zeroLane (A : Words) (p : Nat) (hp : p < 25) :
    view32 (put (put A ⟨p * 2 + 0, by omega⟩ 0) ⟨p * 2 + 1, by omega⟩ 0) =
      Bytes.setAt (view32 A) (p * 8) (List.replicate 8 0) := by
  rw [view32, lanes_put A p hp, il_zero, bytesOfLanes_put]
  rfl

theorem zeroLoop_eq : ∀ (fuel : Nat) (A : Words) (p n : Nat), n < fuel → p * 8 + n ≤ 200 →
    ∃ A', zeroLoop fuel A p n = some A' ∧ view32 A' = Bytes.setAt (view32 A) (p * 8) (List.replicate n 0) := by
  intro fuel
  induction fuel with
  | zero => intro A p n h; omega
  | succ fuel ih =>
    intro A p n hf hw
    unfold zeroLoop
    by_cases h0 : n > 0
    · rw [if_pos h0]
      by_cases h8 : n < 8
      · obtain ⟨A', e1, e2⟩ := overwriteBytesInLane_eq A p (List.replicate 8 0) 0 n h0 (by omega) (by omega)
          (by simp; omega)
        rw [if_pos h8, e1]
        refine ⟨A', ?_, ?_⟩
        · simp only [Option.bind_eq_bind, Option.bind_some]
          cases fuel with
          | zero => omega
          | succ fuel => simp [zeroLoop]
        · rw [e2, List.take_replicate, Nat.min_eq_left (by omega)]; rfl
      · rw [if_neg h8, setWord_some (show p * 2 + 0 < 50 by omega), Option.bind_eq_bind, Option.bind_some,
          setWord_some (show p * 2 + 1 < 50 by omega), Option.bind_some]
        obtain ⟨A', e1, e2⟩ := ih (put (put A ⟨p * 2 + 0, by omega⟩ 0) ⟨p * 2 + 1, by omega⟩ 0) (p + 1) (n - 8)
          (by omega) (by omega)
        refine ⟨A', e1, ?_⟩
        rw [e2, zeroLane A p (by omega), show (p + 1) * 8 = p * 8 + (List.replicate 8 (0 : Byte)).length by simp; omega,
          Bytes.setAt_append, List.replicate_append_replicate, show 8 + (n - 8) = n by omega]
    · have : n = 0 := by omega
      subst this
      exact ⟨A, by simp, by simp [Bytes.setAt_nil]⟩

end KeccakP1600.Ref32
