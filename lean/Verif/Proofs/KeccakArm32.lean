import Verif.Model.KeccakArm32
import Verif.Proofs.KeccakPInplace32Loop

/-! ## the rounds of the 32-bit ARM assembly are those of the C code for 32 bits, in place -/

namespace KeccakP1600.Arm32

open Inplace32 (rol32 load store Half Effect)

theorem ror_eq (w : Word) (k : Nat) (h0 : 0 < k) (h : k < 32) : w.rotateRight (32 - k) = rol32 w k := by
  apply BitVec.eq_of_getLsbD_eq; intro i hi
  rw [BitVec.getLsbD_rotateRight, rol32, BitVec.getLsbD_xor, BitVec.getLsbD_shiftLeft, BitVec.getLsbD_ushiftRight,
    Nat.mod_eq_of_lt (show 32 - k < 32 by omega), show 32 - (32 - k) = k by omega]
  by_cases hk : i < k
  · simp [hk]
  · have : w.getLsbD (32 - k + i) = false := BitVec.getLsbD_of_ge _ _ (by omega)
    simp [hk, this]

/-- `xorrol` with the rotation of the C code -/
def xorrolC (d a b : Nat) (m : M) : M := { m with r := set m.r d (m.r a ^^^ rol32 (m.r b) 1) }

theorem xorrol_eq : xorrol = xorrolC := by
  funext d a b m
  rw [xorrol, xorrolC, show (m.r b).rotateRight 31 = rol32 (m.r b) 1 from ror_eq _ 1 (by decide) (by decide)]

/-- `rors` with the rotation of the C code -/
def rorsC (d rot : Nat) (m : M) : M :=
  { m with r := set m.r d (if 0 < rot ∧ rot < 32 then rol32 (m.r d) rot else (m.r d).rotateRight (32 - rot)) }

theorem rors_eq : rors = rorsC := by
  funext d rot m
  rw [rors, rorsC]
  split
  · rename_i h; rw [ror_eq _ _ h.1 h.2]
  · rfl

/-- `bic` with the operands in the order of the C code -/
def bicC (d n k : Nat) (m : M) : M := { m with r := set m.r d (~~~ m.r k &&& m.r n) }

theorem bic_eq : bic = bicC := by
  funext d n k m
  rw [bic, bicC, BitVec.and_comm]

/-- `xandnot` with the operands in the order of the C code -/
def xandnotC (resofs : Fin 50) (aa bb cc : Nat) (m : M) : M :=
  let m := bicC r1 cc bb m
  let m := eor r1 aa r1 m
  str r1 resofs m

theorem xandnot_eq : xandnot = xandnotC := by
  funext i a b c m
  rw [xandnot, xandnotC, bic_eq]
  simp only [eor]
  rw [BitVec.xor_comm]

/-- the effect of theta, where it is found -/
def effectOf (m : M) : Effect := ⟨m.s 0, m.s 1, m.r 10, m.r 11, m.s 4, m.r 2, m.s 2, m.s 3, m.r 12, m.r 14⟩

theorem reset (m : M) (h8 : m.r 8 = m.s 1) (h9 : m.r 9 = m.s 2) :
    m = ⟨set (set m.r 8 (m.s 1)) 9 (m.s 2), m.A, m.s⟩ := by
  cases m with
  | mk r A s =>
    simp only at *
    congr 1
    funext q
    simp only [set]
    split
    · rename_i h; rw [h, h9]
    · split
      · rename_i h; rw [h, h8]
      · rfl

set_option maxRecDepth 20000 in
theorem theta0_eq (m : M) : (theta0 m).A = m.A ∧ effectOf (theta0 m) = Inplace32.effect0 (load m.A) ∧
    (theta0 m).r 8 = (theta0 m).s 1 ∧ (theta0 m).r 9 = (theta0 m).s 2 := by
  have h : (theta0 m).s 3 = (Inplace32.effect0 (load m.A)).Do1 := by
    unfold theta0
    rw [xorrol_eq]
    exact BitVec.xor_comm _ _
  rw [effectOf, h]
  unfold theta0
  rw [xorrol_eq]
  exact ⟨rfl, rfl, rfl, rfl⟩

set_option maxRecDepth 20000 in
theorem rest0_eq (c0 c1 : Word) (m : M) (h8 : m.r 8 = m.s 1) (h9 : m.r 9 = m.s 2) :
    (rest0 c0 c1 m).A = store (Inplace32.rest0 (effectOf m) c0 c1 (load m.A)) := by
  rw [reset m h8 h9]
  generalize m.r = r
  generalize m.A = A
  generalize m.s = s
  unfold rest0 thetaRhoPiChi thetaRhoPiChiIota rorsIf
  rw [rors_eq, xandnot_eq, bic_eq]
  funext i
  fin_cases i <;> rfl

theorem round0_A (c0 c1 : Word) (m : M) : (round0 c0 c1 m).A = store (Inplace32.round0 c0 c1 (load m.A)) := by
  obtain ⟨hA, hD, h8, h9⟩ := theta0_eq m
  rw [round0, rest0_eq _ _ _ h8 h9, hD, hA, Inplace32.round0]

set_option maxRecDepth 20000 in
theorem theta1_eq (m : M) : (theta1 m).A = m.A ∧ effectOf (theta1 m) = Inplace32.effect1 (load m.A) ∧
    (theta1 m).r 8 = (theta1 m).s 1 ∧ (theta1 m).r 9 = (theta1 m).s 2 := by
  have h : (theta1 m).s 3 = (Inplace32.effect1 (load m.A)).Do1 := by
    unfold theta1
    rw [xorrol_eq]
    exact BitVec.xor_comm _ _
  rw [effectOf, h]
  unfold theta1
  rw [xorrol_eq]
  exact ⟨rfl, rfl, rfl, rfl⟩

set_option maxRecDepth 20000 in
theorem rest1_eq (c0 c1 : Word) (m : M) (h8 : m.r 8 = m.s 1) (h9 : m.r 9 = m.s 2) :
    (rest1 c0 c1 m).A = store (Inplace32.rest1 (effectOf m) c0 c1 (load m.A)) := by
  rw [reset m h8 h9]
  generalize m.r = r
  generalize m.A = A
  generalize m.s = s
  unfold rest1 thetaRhoPiChi thetaRhoPiChiIota rorsIf
  rw [rors_eq, xandnot_eq, bic_eq]
  funext i
  fin_cases i <;> rfl

theorem round1_A (c0 c1 : Word) (m : M) : (round1 c0 c1 m).A = store (Inplace32.round1 c0 c1 (load m.A)) := by
  obtain ⟨hA, hD, h8, h9⟩ := theta1_eq m
  rw [round1, rest1_eq _ _ _ h8 h9, hD, hA, Inplace32.round1]

set_option maxRecDepth 20000 in
theorem theta2_eq (m : M) : (theta2 m).A = m.A ∧ effectOf (theta2 m) = Inplace32.effect2 (load m.A) ∧
    (theta2 m).r 8 = (theta2 m).s 1 ∧ (theta2 m).r 9 = (theta2 m).s 2 := by
  have h : (theta2 m).s 3 = (Inplace32.effect2 (load m.A)).Do1 := by
    unfold theta2
    rw [xorrol_eq]
    exact BitVec.xor_comm _ _
  rw [effectOf, h]
  unfold theta2
  rw [xorrol_eq]
  exact ⟨rfl, rfl, rfl, rfl⟩

set_option maxRecDepth 20000 in
theorem rest2_eq (c0 c1 : Word) (m : M) (h8 : m.r 8 = m.s 1) (h9 : m.r 9 = m.s 2) :
    (rest2 c0 c1 m).A = store (Inplace32.rest2 (effectOf m) c0 c1 (load m.A)) := by
  rw [reset m h8 h9]
  generalize m.r = r
  generalize m.A = A
  generalize m.s = s
  unfold rest2 thetaRhoPiChi thetaRhoPiChiIota rorsIf
  rw [rors_eq, xandnot_eq, bic_eq]
  funext i
  fin_cases i <;> rfl

theorem round2_A (c0 c1 : Word) (m : M) : (round2 c0 c1 m).A = store (Inplace32.round2 c0 c1 (load m.A)) := by
  obtain ⟨hA, hD, h8, h9⟩ := theta2_eq m
  rw [round2, rest2_eq _ _ _ h8 h9, hD, hA, Inplace32.round2]

set_option maxRecDepth 20000 in
theorem theta3_eq (m : M) : (theta3 m).A = m.A ∧ effectOf (theta3 m) = Inplace32.effect3 (load m.A) ∧
    (theta3 m).r 8 = (theta3 m).s 1 ∧ (theta3 m).r 9 = (theta3 m).s 2 := by
  have h : (theta3 m).s 3 = (Inplace32.effect3 (load m.A)).Do1 := by
    unfold theta3
    rw [xorrol_eq]
    exact BitVec.xor_comm _ _
  rw [effectOf, h]
  unfold theta3
  rw [xorrol_eq]
  exact ⟨rfl, rfl, rfl, rfl⟩

set_option maxRecDepth 20000 in
theorem rest3_eq (c0 c1 : Word) (m : M) (h8 : m.r 8 = m.s 1) (h9 : m.r 9 = m.s 2) :
    (rest3 c0 c1 m).A = store (Inplace32.rest3 (effectOf m) c0 c1 (load m.A)) := by
  rw [reset m h8 h9]
  generalize m.r = r
  generalize m.A = A
  generalize m.s = s
  unfold rest3 thetaRhoPiChi thetaRhoPiChiIota rorsIf
  rw [rors_eq, xandnot_eq, bic_eq]
  funext i
  fin_cases i <;> rfl

theorem round3_A (c0 c1 : Word) (m : M) : (round3 c0 c1 m).A = store (Inplace32.round3 c0 c1 (load m.A)) := by
  obtain ⟨hA, hD, h8, h9⟩ := theta3_eq m
  rw [round3, rest3_eq _ _ _ h8 h9, hD, hA, Inplace32.round3]

end KeccakP1600.Arm32
