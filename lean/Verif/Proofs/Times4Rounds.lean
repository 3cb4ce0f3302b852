import Verif.Model.Times4
import Verif.Proofs.SimdOps

/-!
The round macros of the 256-bit SIMD implementation, in each lane.
-/

namespace Times4

open KeccakP1600 (Lane Lanes rstep lane)
open Simd

section

variable {α : Type} {O : Ops α} {f : α → Lane}

theorem prepareTheta_ok (h : OpsOk O f) (A : V α) :
    parOf f (prepareTheta O A) = KeccakP1600.Opt64.prepareTheta (optOf f A) := by
  simp only [prepareTheta, parOf, optOf, KeccakP1600.Opt64.prepareTheta, h.xor, BitVec.xor_assoc]

theorem roundPrep_ok (h : OpsOk O f) (rc : Lane) (A : V α) (c : C5 α) :
    optOf f (roundPrep O rc A c).2.1 = (KeccakP1600.Opt64.roundPrep rc (optOf f A) (parOf f c)).2.1 := by
  have hr : ∀ a o, (decide (0 < o ∧ o < 64)) = true → f (O.rol a o) = KeccakP1600.Opt64.rol64 (f a) o := by
    intro a o ho; simp at ho; exact h.rol a o ho.1 ho.2
  simp (discharger := decide) only [roundPrep, optOf, parOf, KeccakP1600.Opt64.roundPrep, h.xor, h.andnot, hr, h.rol8, h.rol56,
    h.const]

theorem roundPrep_c (h : OpsOk O f) (rc : Lane) (A : V α) (c : C5 α) :
    parOf f (roundPrep O rc A c).2.2 = KeccakP1600.Opt64.prepareTheta (optOf f (roundPrep O rc A c).2.1) := by
  obtain ⟨E, hE⟩ : ∃ E, E = (roundPrep O rc A c).2.1 := ⟨_, rfl⟩
  have hc : (roundPrep O rc A c).2.2 =
      ⟨O.xor (O.xor (O.xor (O.xor E.ba E.ga) E.ka) E.ma) E.sa, O.xor (O.xor (O.xor (O.xor E.be E.ge) E.ke) E.me) E.se,
       O.xor (O.xor (O.xor (O.xor E.bi E.gi) E.ki) E.mi) E.si, O.xor (O.xor (O.xor (O.xor E.bo E.go) E.ko) E.mo) E.so,
       O.xor (O.xor (O.xor (O.xor E.bu E.gu) E.ku) E.mu) E.su⟩ := by rw [hE]; rfl
  rw [hc, ← hE]
  simp only [parOf, optOf, KeccakP1600.Opt64.prepareTheta, h.xor, BitVec.xor_assoc]

theorem round_eq (rc : Lane) (A : V α) (c : C5 α) : (round O rc A c).2 = (roundPrep O rc A c).2.1 := rfl

end

theorem roundConstants_eq : roundConstants = KeccakP1600.Ref.roundConstants := by decide

theorem ops_ok (l : Fin 4) : OpsOk ops (fun v => v l) where
  xor _ _ := rfl
  andnot _ _ := rfl
  rol a o h0 h := or_shift_eq (a l) o h0 h
  rol8 a := by
    rw [show ops.rol8 a l = shuffleEpi8 a rho8 l from rfl,
      shuffle_lane a rho8 l (fun r => (r + 7) % 8) (by revert l; decide)]
    exact bytes_rol (a l) _ 1 (by decide) (by decide) (by decide)
  rol56 a := by
    rw [show ops.rol56 a l = shuffleEpi8 a rho56 l from rfl,
      shuffle_lane a rho56 l (fun r => (r + 1) % 8) (by revert l; decide)]
    exact bytes_rol (a l) _ 7 (by decide) (by decide) (by decide)
  const _ := rfl

theorem rounds_sound (l : Fin 4) : Sound rounds (fun v => v l) where
  prep A := prepareTheta_ok (ops_ok l) A
  step i A c h := by
    refine ⟨?_, roundPrep_c (ops_ok l) _ A c⟩
    have h1 := roundPrep_ok (ops_ok l) (roundConstants.getD i 0) A c
    have h2 := (KeccakP1600.Opt64.prepRound ⟨false, .full⟩ (roundConstants.getD i 0) (optOf (fun v => v l) A)).1
    rw [h] at h1
    rw [roundConstants_eq] at h1 h2
    show KeccakP1600.Opt64.copyToState (optOf _ (roundPrep ops (roundConstants.getD i 0) A c).2.1) = _
    rw [roundConstants_eq, h1]
    exact h2
  last i A c := round_eq _ A c

end Times4
