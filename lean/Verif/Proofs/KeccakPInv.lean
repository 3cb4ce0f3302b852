import Verif.Spec.KeccakP
import Verif.Base.Tactics
import Mathlib.Data.Fintype.Basic
import Mathlib.Data.Fintype.Pi
import Mathlib.Data.Fintype.EquivFin

/-!
Lemmas: the step mappings of Keccak-p[1600] (FIPS 202 section 3.2) are injective.
-/

namespace Spec.KeccakP

/-- adding to a parity plane two translates of itself -/
def Q (s : Fin 5) (t : Fin 64) (P : Fin 5 → Fin 64 → Bool) (x : Fin 5) (z : Fin 64) : Bool :=
  P x z ^^ P (x - s) z ^^ P (x + s) (z - t)

theorem fin64_sub_sub (z t : Fin 64) : z - t - t = z - (t + t) := by
  apply Fin.ext
  simp only [Fin.sub_def, Fin.add_def]
  omega

theorem fin64_sub_zero (z : Fin 64) : z - 0 = z := by
  apply Fin.ext
  simp only [Fin.sub_def, Fin.val_zero]
  omega

theorem xor_cancel : ∀ {a b c : Bool}, (a ^^ c) = (b ^^ c) → a = b := by decide

theorem fin5_a : ∀ x s : Fin 5, x - s - s = x - (s + s) := by decide
theorem fin5_b : ∀ x s : Fin 5, x + s + s = x + (s + s) := by decide
theorem fin5_c : ∀ x s : Fin 5, x + s - s = x := by decide
theorem fin5_d : ∀ x s : Fin 5, x - s + s = x := by decide

theorem Q_Q (s : Fin 5) (t : Fin 64) (P : Fin 5 → Fin 64 → Bool) : Q s t (Q s t P) = Q (s + s) (t + t) P := by
  funext x z
  simp only [Q, fin64_sub_sub, fin5_a, fin5_b, fin5_c, fin5_d]
  generalize P x z = a
  generalize P (x - s) z = b
  generalize P (x + s) (z - t) = c
  generalize P (x - (s + s)) z = d
  generalize P (x + (s + s)) (z - (t + t)) = e
  generalize P x (z - t) = f
  revert a b c d e f
  decide

theorem Q_inj_of_double {s : Fin 5} {t : Fin 64} (h : Function.Injective (Q (s + s) (t + t))) :
    Function.Injective (Q s t) := by
  intro P P' hP
  apply h
  rw [← Q_Q, ← Q_Q, hP]

theorem Q_inj_last : Function.Injective (Q 4 0) := by
  intro P P' hP
  funext x z
  have key : ∀ (P : Fin 5 → Fin 64 → Bool) (x : Fin 5),
      P x z = (Q 4 0 P x z ^^ Q 4 0 P (x + 2) z ^^ Q 4 0 P (x + 3) z) := by
    intro P x
    have e : ∀ x : Fin 5, x - 4 = x + 1 := by decide
    have h0 : z - 0 = z := fin64_sub_zero z
    simp only [Q, e, h0]
    have f1 : ∀ x : Fin 5, x + 2 + 1 = x + 3 := by decide
    have f2 : ∀ x : Fin 5, x + 2 + 4 = x + 1 := by decide
    have f3 : ∀ x : Fin 5, x + 3 + 1 = x + 4 := by decide
    have f4 : ∀ x : Fin 5, x + 3 + 4 = x + 2 := by decide
    rw [f1, f2, f3, f4]
    generalize P x z = a0
    generalize P (x + 1) z = a1
    generalize P (x + 2) z = a2
    generalize P (x + 3) z = a3
    generalize P (x + 4) z = a4
    revert a0 a1 a2 a3 a4
    decide
  rw [key P x, key P' x, hP]

theorem Q_inj : Function.Injective (Q 1 1) := by
  apply Q_inj_of_double
  show Function.Injective (Q 2 2)
  apply Q_inj_of_double
  show Function.Injective (Q 4 4)
  apply Q_inj_of_double
  show Function.Injective (Q 3 8)
  apply Q_inj_of_double
  show Function.Injective (Q 1 16)
  apply Q_inj_of_double
  show Function.Injective (Q 2 32)
  apply Q_inj_of_double
  exact Q_inj_last

theorem C_theta (A : StateArray) : C (theta A) = Q 1 1 (C A) := by
  funext x z
  have : Q 1 1 (C A) x z = (C A x z ^^ D A x z) := by
    simp only [Q, D, Bool.xor_assoc]
  rw [this]
  generalize hD : D A x z = d
  simp only [C, theta, hD]
  clear hD this
  generalize A x 0 z = a0
  generalize A x 1 z = a1
  generalize A x 2 z = a2
  generalize A x 3 z = a3
  generalize A x 4 z = a4
  revert a0 a1 a2 a3 a4 d
  decide

theorem theta_injective : Function.Injective theta := by
  intro A B h
  have hC : C A = C B := by
    apply Q_inj
    rw [← C_theta, ← C_theta, h]
  funext x y z
  have := congrFun (congrFun (congrFun h x) y) z
  simp only [theta, D, hC] at this
  exact xor_cancel this

theorem pi_injective : Function.Injective pi := by
  intro A B h
  funext x y z
  have e : ∀ x y : Fin 5, y + 3 * (2 * x + 3 * y) = x := by decide
  have := congrFun (congrFun (congrFun h y) (2 * x + 3 * y)) z
  simpa only [pi, e] using this

theorem chi_injective : Function.Injective chi := by
  intro A B h
  have key : ∀ a0 a1 a2 a3 a4 b0 b1 b2 b3 b4 : Bool,
      (a0 ^^ ((a1 ^^ true) && a2)) = (b0 ^^ ((b1 ^^ true) && b2)) →
      (a1 ^^ ((a2 ^^ true) && a3)) = (b1 ^^ ((b2 ^^ true) && b3)) →
      (a2 ^^ ((a3 ^^ true) && a4)) = (b2 ^^ ((b3 ^^ true) && b4)) →
      (a3 ^^ ((a4 ^^ true) && a0)) = (b3 ^^ ((b4 ^^ true) && b0)) →
      (a4 ^^ ((a0 ^^ true) && a1)) = (b4 ^^ ((b0 ^^ true) && b1)) → a0 = b0 := by decide +kernel
  funext x y z
  have g := fun x => congrFun (congrFun (congrFun h x) y) z
  have g0 := g x
  have g1 := g (x + 1)
  have g2 := g (x + 2)
  have g3 := g (x + 3)
  have g4 := g (x + 4)
  have f1 : ∀ x : Fin 5, x + 1 + 1 = x + 2 := by decide
  have f2 : ∀ x : Fin 5, x + 1 + 2 = x + 3 := by decide
  have f3 : ∀ x : Fin 5, x + 2 + 1 = x + 3 := by decide
  have f4 : ∀ x : Fin 5, x + 2 + 2 = x + 4 := by decide
  have f5 : ∀ x : Fin 5, x + 3 + 1 = x + 4 := by decide
  have f6 : ∀ x : Fin 5, x + 3 + 2 = x := by decide
  have f7 : ∀ x : Fin 5, x + 4 + 1 = x := by decide
  have f8 : ∀ x : Fin 5, x + 4 + 2 = x + 1 := by decide
  simp only [chi, f1, f2, f3, f4, f5, f6, f7, f8] at g0 g1 g2 g3 g4
  exact key _ _ _ _ _ _ _ _ _ _ g0 g1 g2 g3 g4

theorem iota_injective (ir : Nat) : Function.Injective (iota · ir) := by
  intro A B h
  funext x y z
  have := congrFun (congrFun (congrFun h x) y) z
  simp only [iota] at this
  split at this
  · exact xor_cancel this
  · exact this

/-- the rotation of the lane `(x, y)` found by the walk of Algorithm 2 -/
theorem rho_rot : ∀ x y : Fin 5, ∃ o : Fin 64, ∀ (S : StateArray) (z : Fin 64), rho S x y z = S x y (z - o) := by
  intro x y
  fin_cases x <;> fin_cases y <;> first
    | exact ⟨_, fun _ _ => rfl⟩
    | exact ⟨0, fun S z => by rw [fin64_sub_zero z]; rfl⟩

theorem rho_injective : Function.Injective rho := by
  intro A B h
  funext x y z
  obtain ⟨o, ho⟩ := rho_rot x y
  have := congrFun (congrFun (congrFun h x) y) (z + o)
  rw [ho, ho] at this
  have e : z + o - o = z := by
    apply Fin.ext
    simp only [Fin.sub_def, Fin.add_def]
    omega
  rwa [e] at this

theorem Rnd_injective (ir : Nat) : Function.Injective (Rnd · ir) :=
  (iota_injective ir).comp (chi_injective.comp (pi_injective.comp (rho_injective.comp theta_injective)))

theorem foldl_injective {α β : Type} (f : α → β → α) (hf : ∀ b, Function.Injective (f · b)) (l : List β) :
    Function.Injective (fun a => l.foldl f a) := by
  induction l with
  | nil => exact Function.injective_id
  | cons b l ih => exact ih.comp (hf b)

theorem rounds_injective (nr : Nat) : Function.Injective (rounds nr) := foldl_injective _ Rnd_injective _

theorem rounds_bijective (nr : Nat) : Function.Bijective (rounds nr) :=
  Finite.injective_iff_bijective.1 (rounds_injective nr)

end Spec.KeccakP
