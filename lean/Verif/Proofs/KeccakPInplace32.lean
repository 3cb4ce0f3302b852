import Verif.Model.KeccakP1600Inplace32
import Verif.Proofs.KeccakPRef32

/-! # The in-place 32-bit implementation: its rounds and its tables -/

namespace KeccakP1600.Inplace32

open Ref32 (theta rho pi chi thetaC thetaD index rhoOffsets)

/-! ## the four rounds -/

/-- where the words of the lanes are after round 0 -/
def order1 (S : Half) : Half :=
  ⟨S.Aba0, S.Aba1, S.Age0, S.Age1, S.Aki1, S.Aki0, S.Amo1, S.Amo0, S.Asu0, S.Asu1, S.Aka1, S.Aka0, S.Ame1,
   S.Ame0, S.Asi1, S.Asi0, S.Abo0, S.Abo1, S.Agu0, S.Agu1, S.Asa0, S.Asa1, S.Abe1, S.Abe0, S.Agi0, S.Agi1,
   S.Ako1, S.Ako0, S.Amu0, S.Amu1, S.Aga0, S.Aga1, S.Ake0, S.Ake1, S.Ami1, S.Ami0, S.Aso0, S.Aso1, S.Abu1,
   S.Abu0, S.Ama1, S.Ama0, S.Ase0, S.Ase1, S.Abi0, S.Abi1, S.Ago1, S.Ago0, S.Aku1, S.Aku0⟩

/-- where the words of the lanes are after round 1 -/
def order2 (S : Half) : Half :=
  ⟨S.Aba0, S.Aba1, S.Ame1, S.Ame0, S.Agi1, S.Agi0, S.Aso1, S.Aso0, S.Aku1, S.Aku0, S.Asa1, S.Asa0, S.Ake1,
   S.Ake0, S.Abi1, S.Abi0, S.Amo1, S.Amo0, S.Agu0, S.Agu1, S.Ama1, S.Ama0, S.Age1, S.Age0, S.Asi1, S.Asi0,
   S.Ako0, S.Ako1, S.Abu1, S.Abu0, S.Aka1, S.Aka0, S.Abe1, S.Abe0, S.Ami0, S.Ami1, S.Ago1, S.Ago0, S.Asu1,
   S.Asu0, S.Aga1, S.Aga0, S.Ase0, S.Ase1, S.Aki1, S.Aki0, S.Abo1, S.Abo0, S.Amu1, S.Amu0⟩

/-- where the words of the lanes are after round 2 -/
def order3 (S : Half) : Half :=
  ⟨S.Aba0, S.Aba1, S.Ake1, S.Ake0, S.Asi0, S.Asi1, S.Ago0, S.Ago1, S.Amu1, S.Amu0, S.Ama0, S.Ama1, S.Abe0,
   S.Abe1, S.Aki0, S.Aki1, S.Aso1, S.Aso0, S.Agu0, S.Agu1, S.Aga1, S.Aga0, S.Ame0, S.Ame1, S.Abi1, S.Abi0,
   S.Ako1, S.Ako0, S.Asu1, S.Asu0, S.Asa1, S.Asa0, S.Age1, S.Age0, S.Ami1, S.Ami0, S.Abo1, S.Abo0, S.Aku0,
   S.Aku1, S.Aka0, S.Aka1, S.Ase0, S.Ase1, S.Agi1, S.Agi0, S.Amo0, S.Amo1, S.Abu0, S.Abu1⟩

/-- adding a given effect to the columns -/
def addEffect (D : Effect) (A : Words) : Words := fun i =>
  A i ^^^ [D.Da0, D.Da1, D.De0, D.De1, D.Di0, D.Di1, D.Do0, D.Do1, D.Du0, D.Du1].getD (i.val % 10) 0

/-- what `Ref32.iota` does, for a given pair of words -/
def iotaC (c0 c1 : Word) (A : Words) : Words :=
  let A := put A (index 0 0 0) (A (index 0 0 0) ^^^ c0)
  put A (index 0 0 1) (A (index 0 0 1) ^^^ c1)

/-- one round of the reference implementation, for a given pair of words -/
def roundC (c0 c1 : Word) (A : Words) : Words := iotaC c0 c1 (chi (pi (rho rhoOffsets (theta A))))

theorem forall_fin50 {p : Fin 50 → Prop} (h : ∀ (x y : Fin 5) (z : Fin 2), p (index x.val y.val z)) : ∀ i, p i := by
  intro i
  have := h ⟨i.val / 2 % 5, by omega⟩ ⟨i.val / 2 / 5, by omega⟩ ⟨i.val % 2, by omega⟩
  convert this using 1
  apply Fin.ext
  simp only [index]
  omega

/-- chi after pi after rho, word by word -/
theorem chi_pi_rho_word (A : Words) (x y : Fin 5) (z : Fin 2) :
    chi (pi (rho rhoOffsets A)) (index x.val y.val z) =
      let E (x y : Fin 5) (z : Fin 2) : Word :=
        let r := Ref32.rol64 (A (index (x + 3 * y).val x.val 0)) (A (index (x + 3 * y).val x.val 1))
          (rhoOffsets.getD (lane (x + 3 * y) x).val 0)
        if z = 0 then r.1 else r.2
      E x y z ^^^ (~~~ E (x + 1) y z &&& E (x + 2) y z) := by
  have h : ∀ (x y : Fin 5) (z : Fin 2), pi (rho rhoOffsets A) (index x.val y.val z) =
      let r := Ref32.rol64 (A (index (x + 3 * y).val x.val 0)) (A (index (x + 3 * y).val x.val 1))
          (rhoOffsets.getD (lane (x + 3 * y) x).val 0)
      if z = 0 then r.1 else r.2 := by
    intro x y z
    rw [Ref32.pi_word, ← Ref32.rho_word]
    fin_cases z <;> rfl
  rw [Ref32.chi_word, h, h, h]

theorem iotaC_word (c0 c1 : Word) (A : Words) (x y : Fin 5) (z : Fin 2) : iotaC c0 c1 A (index x.val y.val z) =
    if x = 0 ∧ y = 0 then A (index x.val y.val z) ^^^ (if z = 0 then c0 else c1) else A (index x.val y.val z) := by
  fin_cases x <;> fin_cases y <;> fin_cases z <;> rfl

theorem theta_eq (D : Effect) (A : Words)
    (h : ∀ (x : Fin 5) (z : Fin 2), thetaD A x.val z =
      [D.Da0, D.Da1, D.De0, D.De1, D.Di0, D.Di1, D.Do0, D.Do1, D.Du0, D.Du1].getD (x.val * 2 + z.val) 0) :
    theta A = addEffect D A := by
  funext i
  refine forall_fin50 (p := fun i => theta A i = addEffect D A i) (fun x y z => ?_) i
  rw [Ref32.theta_word, h, addEffect]
  congr 2
  simp only [index]
  omega

theorem thetaC_word (A : Words) (x : Nat) (z : Fin 2) : thetaC A x z =
    A (index x 0 z) ^^^ A (index x 1 z) ^^^ A (index x 2 z) ^^^ A (index x 3 z) ^^^ A (index x 4 z) := by
  simp [thetaC, loopFrom]

theorem thetaD_word (A : Words) (x : Nat) (z : Fin 2) : thetaD A x z =
    (if z = 0 then rol32 (thetaC A ((x + 1) % 5) 1) 1 else thetaC A ((x + 1) % 5) 0) ^^^ thetaC A ((x + 4) % 5) z := by
  fin_cases z <;> rfl

theorem effect0_eq (S : Half) : theta (store S) = addEffect (effect0 S) (store S) := by
  apply theta_eq
  intro x z
  rw [thetaD_word, thetaC_word, thetaC_word, thetaC_word]
  cases S
  fin_cases x <;> fin_cases z <;> (simp [store, order1, order2, order3, index, effect0]; try ac_rfl)

theorem rest0_eq (D : Effect) (c0 c1 : Word) (S : Half) :
    store (order1 (rest0 D c0 c1 S)) = iotaC c0 c1 (chi (pi (rho rhoOffsets (addEffect D (store S))))) := by
  funext i
  refine forall_fin50 (p := fun i => store (order1 (rest0 D c0 c1 S)) i = _) (fun x y z => ?_) i
  rw [iotaC_word, chi_pi_rho_word]
  cases S; cases D
  fin_cases x <;> fin_cases y <;> fin_cases z <;> rfl

theorem effect1_eq (S : Half) : theta (store (order1 S)) = addEffect (effect1 S) (store (order1 S)) := by
  apply theta_eq
  intro x z
  rw [thetaD_word, thetaC_word, thetaC_word, thetaC_word]
  cases S
  fin_cases x <;> fin_cases z <;> (simp [store, order1, order2, order3, index, effect1]; try ac_rfl)

theorem rest1_eq (D : Effect) (c0 c1 : Word) (S : Half) :
    store (order2 (rest1 D c0 c1 S)) = iotaC c0 c1 (chi (pi (rho rhoOffsets (addEffect D (store (order1 S)))))) := by
  funext i
  refine forall_fin50 (p := fun i => store (order2 (rest1 D c0 c1 S)) i = _) (fun x y z => ?_) i
  rw [iotaC_word, chi_pi_rho_word]
  cases S; cases D
  fin_cases x <;> fin_cases y <;> fin_cases z <;> rfl

theorem effect2_eq (S : Half) : theta (store (order2 S)) = addEffect (effect2 S) (store (order2 S)) := by
  apply theta_eq
  intro x z
  rw [thetaD_word, thetaC_word, thetaC_word, thetaC_word]
  cases S
  fin_cases x <;> fin_cases z <;> (simp [store, order1, order2, order3, index, effect2]; try ac_rfl)

theorem rest2_eq (D : Effect) (c0 c1 : Word) (S : Half) :
    store (order3 (rest2 D c0 c1 S)) = iotaC c0 c1 (chi (pi (rho rhoOffsets (addEffect D (store (order2 S)))))) := by
  funext i
  refine forall_fin50 (p := fun i => store (order3 (rest2 D c0 c1 S)) i = _) (fun x y z => ?_) i
  rw [iotaC_word, chi_pi_rho_word]
  cases S; cases D
  fin_cases x <;> fin_cases y <;> fin_cases z <;> rfl

theorem effect3_eq (S : Half) : theta (store (order3 S)) = addEffect (effect3 S) (store (order3 S)) := by
  apply theta_eq
  intro x z
  rw [thetaD_word, thetaC_word, thetaC_word, thetaC_word]
  cases S
  fin_cases x <;> fin_cases z <;> (simp [store, order1, order2, order3, index, effect3]; try ac_rfl)

theorem rest3_eq (D : Effect) (c0 c1 : Word) (S : Half) :
    store (rest3 D c0 c1 S) = iotaC c0 c1 (chi (pi (rho rhoOffsets (addEffect D (store (order3 S)))))) := by
  funext i
  refine forall_fin50 (p := fun i => store (rest3 D c0 c1 S) i = _) (fun x y z => ?_) i
  rw [iotaC_word, chi_pi_rho_word]
  cases S; cases D
  fin_cases x <;> fin_cases y <;> fin_cases z <;> rfl

theorem round0_eq (c0 c1 : Word) (S : Half) : store (order1 (round0 c0 c1 S)) = roundC c0 c1 (store S) := by
  rw [round0, rest0_eq, ← effect0_eq]; rfl

theorem round1_eq (c0 c1 : Word) (S : Half) :
    store (order2 (round1 c0 c1 S)) = roundC c0 c1 (store (order1 S)) := by
  rw [round1, rest1_eq, ← effect1_eq]; rfl

theorem round2_eq (c0 c1 : Word) (S : Half) :
    store (order3 (round2 c0 c1 S)) = roundC c0 c1 (store (order2 S)) := by
  rw [round2, rest2_eq, ← effect2_eq]; rfl

theorem round3_eq (c0 c1 : Word) (S : Half) : store (round3 c0 c1 S) = roundC c0 c1 (store (order3 S)) := by
  rw [round3, rest3_eq, ← effect3_eq]; rfl

end KeccakP1600.Inplace32
