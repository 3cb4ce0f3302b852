import Verif.Model.XoodooNeon
import Verif.Proofs.XoodooArmBytes

/-!
The rounds of the NEON assembly do to the twelve lanes what the reference rounds do.
-/

namespace XoodooNeon

open Xoodoo (Lane Lanes bytesOfLanes rotl32)
open Simd32 (Vec)
open XoodooPlanes (Planes B)

theorem sri_shl (a : Lane) (i j : Nat) (hi : 0 < i) (hj : i + j = 32) (h0 : 0 < j) :
    (a <<< i &&& ~~~ (BitVec.allOnes 32 >>> j)) ||| a >>> j = rotl32 a i := by
  have hr := XoodooSimd.rotateLeft_eq a i hi (by omega)
  rw [← hr]
  apply BitVec.eq_of_getLsbD_eq
  intro t ht
  rw [XoodooArm.getLsbD_rol _ _ _ ht]
  have h1 : (BitVec.allOnes 32 >>> j).getLsbD t = decide (j + t < 32) := by
    rw [BitVec.getLsbD_ushiftRight, BitVec.getLsbD_allOnes]
  rw [BitVec.getLsbD_or, BitVec.getLsbD_and, BitVec.getLsbD_not, h1, BitVec.getLsbD_shiftLeft, BitVec.getLsbD_ushiftRight]
  by_cases h : t < i
  · rw [show (t + 32 - i % 32) % 32 = j + t by rw [Nat.mod_eq_of_lt (by omega : i < 32)]; omega]
    simp [h, ht]
  · rw [show (t + 32 - i % 32) % 32 = t - i by rw [Nat.mod_eq_of_lt (by omega : i < 32)]; omega]
    have : a.getLsbD (j + t) = false := BitVec.getLsbD_of_ge _ _ (by omega)
    simp [h, ht, this, show ¬ j + t < 32 by omega]

theorem at0 (v : Vec 4) : v.at 0 = v 0 := rfl
theorem at1 (v : Vec 4) : v.at 1 = v 1 := rfl
theorem at2 (v : Vec 4) : v.at 2 = v 2 := rfl
theorem at3 (v : Vec 4) : v.at 3 = v 3 := rfl

theorem chi0 (a b c : Lane) : a ^^^ (c &&& ~~~ b) = a ^^^ (~~~ b &&& c) := by rw [BitVec.and_comm]

theorem chi1 (a b c : Lane) : b ^^^ (a &&& ~~~ c) = b ^^^ (~~~ c &&& (a ^^^ (~~~ b &&& c))) := by
  apply BitVec.eq_of_getLsbD_eq
  intro t ht
  simp only [BitVec.getLsbD_xor, BitVec.getLsbD_and, BitVec.getLsbD_not, ht, decide_true, Bool.true_and]
  cases a.getLsbD t <;> cases b.getLsbD t <;> cases c.getLsbD t <;> rfl

theorem chi2 (a b c : Lane) : c ^^^ (b &&& ~~~ a) =
    c ^^^ (~~~ (a ^^^ (~~~ b &&& c)) &&& (b ^^^ (~~~ c &&& (a ^^^ (~~~ b &&& c))))) := by
  apply BitVec.eq_of_getLsbD_eq
  intro t ht
  simp only [BitVec.getLsbD_xor, BitVec.getLsbD_and, BitVec.getLsbD_not, ht, decide_true, Bool.true_and]
  cases a.getLsbD t <;> cases b.getLsbD t <;> cases c.getLsbD t <;> rfl

/-- The registers with the state. -/
def planes (m : M) : Planes := ⟨m.q 0, m.q 1, m.q 2⟩

/-- What the load of a round constant leaves. -/
def withRc (m : M) (rc : Lane) : M := { m.setD 6 rc 0 with rc := m.rc + 8 }

theorem set_get (m : M) (d : Nat) (v : Vec 4) (i : Nat) : (m.set d v).q i = if i = d then v else m.q i := rfl

/-- The effect of theta on the lanes of a plane. -/
def eff (m : M) (l : Fin 4) : Lane :=
  rotl32 (m.q 0 (l + 3) ^^^ m.q 1 (l + 3) ^^^ m.q 2 (l + 3)) 5 ^^^ rotl32 (m.q 0 (l + 3) ^^^ m.q 1 (l + 3) ^^^ m.q 2 (l + 3)) 14

theorem eff_eq (x : Lane) : ((x <<< 5 &&& ~~~ (BitVec.allOnes 32 >>> 27)) ||| x >>> 27) ^^^
    ((x <<< 14 &&& ~~~ (BitVec.allOnes 32 >>> 18)) ||| x >>> 18) = rotl32 x 5 ^^^ rotl32 x 14 := by
  rw [sri_shl x 5 27 (by decide) (by decide) (by decide), sri_shl x 14 18 (by decide) (by decide) (by decide)]

theorem roundA_0 (m : M) : (mRoundA m).q 0 = fun l => m.q 0 l ^^^ eff m l := by
  funext l
  fin_cases l <;> exact congrArg (_ ^^^ ·) (eff_eq _)

theorem roundA_1 (m : M) : (mRoundA m).q 1 = fun l => m.q 1 (l + 3) ^^^ eff m (l + 3) := by
  funext l
  fin_cases l <;> exact congrArg (_ ^^^ ·) (eff_eq _)

theorem roundA_5 (m : M) : (mRoundA m).q 5 = fun l => m.q 2 l ^^^ eff m l := by
  funext l
  fin_cases l <;> exact congrArg (_ ^^^ ·) (eff_eq _)

theorem roundA_2 (m : M) : (mRoundA m).q 2 = fun l => (mRoundA m).q 5 l <<< 11 := rfl

theorem sri11 (m : M) (h : m.q 2 = fun l => m.q 5 l <<< 11) : vsri 2 5 (32 - 11) m = m.set 2 fun l => rotl32 (m.q 5 l) 11 := by
  unfold vsri
  congr 1
  funext l
  rw [h]
  exact sri_shl _ 11 21 (by decide) (by decide) (by decide)

theorem iota (m : M) (rc : Lane) (h0 : m.q 3 0 = rc) (h1 : m.q 3 1 = 0) :
    veorD 0 0 6 m = m.set 0 fun l => if l = 0 then m.q 0 0 ^^^ rc else m.q 0 l := by
  unfold veorD M.setD
  congr 1
  funext l
  fin_cases l
  · exact congrArg (_ ^^^ ·) h0
  · exact (congrArg (_ ^^^ ·) h1).trans BitVec.xor_zero
  · rfl
  · rfl

/-- `mRound` after iota. -/
def mRoundC (m : M) : M :=
  let m := vbic 3 2 1 m
  let m := vbic 4 0 2 m
  let m := vbic 5 1 0 m
  let m := veor 0 0 3 m
  let m := veor 4 1 4 m
  let m := veor 2 2 5 m
  let m := vext 5 2 2 2 m
  let m := vshl 1 4 1 m
  let m := vshl 2 5 8 m
  let m := vsri 1 4 (32 - 1) m
  vsri 2 5 (32 - 8) m

theorem roundC_0 (m : M) : (mRoundC m).q 0 = fun l => m.q 0 l ^^^ (m.q 2 l &&& ~~~ m.q 1 l) := rfl

theorem roundC_1 (m : M) : (mRoundC m).q 1 = fun l => rotl32 (m.q 1 l ^^^ (m.q 0 l &&& ~~~ m.q 2 l)) 1 := by
  funext l
  exact sri_shl _ 1 31 (by decide) (by decide) (by decide)

theorem roundC_2 (m : M) : (mRoundC m).q 2 = fun l => rotl32 (m.q 2 (l + 2) ^^^ (m.q 1 (l + 2) &&& ~~~ m.q 0 (l + 2))) 8 := by
  funext l
  fin_cases l <;> exact sri_shl _ 8 24 (by decide) (by decide) (by decide)

theorem toV_round (rc : Lane) (m : M) :
    XoodooPlanes.toV (planes (mRoundB (withRc (mRoundA m) rc))) = Xoodoo.Opt.round rc (XoodooPlanes.toV (planes m)) := by
  have e0 : (withRc (mRoundA m) rc).q 0 = fun l => m.q 0 l ^^^ eff m l := roundA_0 m
  have e1 : (withRc (mRoundA m) rc).q 1 = fun l => m.q 1 (l + 3) ^^^ eff m (l + 3) := roundA_1 m
  have e5 : (withRc (mRoundA m) rc).q 5 = fun l => m.q 2 l ^^^ eff m l := roundA_5 m
  have e2 : (withRc (mRoundA m) rc).q 2 = fun l => (withRc (mRoundA m) rc).q 5 l <<< 11 := roundA_2 m
  have e3 : (withRc (mRoundA m) rc).q 3 0 = rc := rfl
  have e4 : (withRc (mRoundA m) rc).q 3 1 = 0 := rfl
  generalize withRc (mRoundA m) rc = n at *
  have e : mRoundB n = mRoundC (veorD 0 0 6 (vsri 2 5 (32 - 11) n)) := rfl
  rw [e, sri11 n e2, iota _ rc (show (n.set 2 _).q 3 0 = rc from e3) e4, planes, roundC_0, roundC_1, roundC_2]
  simp only [set_get, if_true, Nat.reduceEqDiff, if_false, e0, e1, e5, OfNat.ofNat_ne_zero, OfNat.zero_ne_ofNat, one_ne_zero, zero_ne_one]
  refine Xoodoo.Opt.V.mk.injEq .. |>.mpr ⟨?_, ?_, ?_, ?_, ?_, ?_, ?_, ?_, ?_, ?_, ?_, ?_⟩
  · exact chi0 _ _ _
  · exact chi0 _ _ _
  · exact chi0 _ _ _
  · exact chi0 _ _ _
  · exact congrArg (rotl32 · 1) (chi1 _ _ _)
  · exact congrArg (rotl32 · 1) (chi1 _ _ _)
  · exact congrArg (rotl32 · 1) (chi1 _ _ _)
  · exact congrArg (rotl32 · 1) (chi1 _ _ _)
  · exact congrArg (rotl32 · 8) (chi2 _ _ _)
  · exact congrArg (rotl32 · 8) (chi2 _ _ _)
  · exact congrArg (rotl32 · 8) (chi2 _ _ _)
  · exact congrArg (rotl32 · 8) (chi2 _ _ _)

/-! ### The rounds -/

/-- The constant read by round `i` of the table. -/
theorem vldRc_eq (tab : List Lane) (m : M) (i : Nat) (rc : Lane) (h : m.rc = 8 * i) (h0 : tab[2 * i]? = some rc) (h1 : tab[2 * i + 1]? = some 0) :
    vldRc tab 6 m = some (withRc m rc) := by
  rw [vldRc, h, show 8 * i / 4 = 2 * i by omega, h0, h1, ← h]
  rfl

/-- The registers other than those of the state that the rounds do not touch. -/
theorem roundB_frame (m : M) (rc : Lane) (i : Nat) (hi : 6 ≤ i) : (mRoundB (withRc (mRoundA m) rc)).q i = m.q i := by
  obtain ⟨k, rfl⟩ : ∃ k, i = k + 6 := ⟨i - 6, by omega⟩
  rfl

theorem quads_get (cs : List Lane) (i : Nat) (rc : Lane) (h : cs[i]? = some rc) :
    (quads cs)[2 * i]? = some rc ∧ (quads cs)[2 * i + 1]? = some 0 := by
  induction cs generalizing i with
  | nil => simp at h
  | cons c cs ih =>
    cases i with
    | zero => simpa [quads] using h
    | succ i =>
      rw [List.getElem?_cons_succ] at h
      have := ih i h
      rw [quads, show 2 * (i + 1) = 2 * i + 1 + 1 by omega, List.getElem?_cons_succ, List.getElem?_cons_succ,
        show 2 * i + 1 + 1 + 1 = (2 * i + 1) + 1 + 1 by omega, List.getElem?_cons_succ, List.getElem?_cons_succ]
      exact this

/-- The rounds with the constants `cs` from position `i`. -/
theorem mRounds_eq (cs : List Lane) : ∀ (n : Nat) (m : M) (i : Nat), m.rc = 8 * i → i + n ≤ cs.length →
    ∃ m', mRounds (quads cs) n m = some m' ∧ (∀ k, 6 ≤ k → m'.q k = m.q k) ∧
      XoodooPlanes.vars2State (planes m') = ((cs.drop i).take n).foldl (fun A rc => Xoodoo.Ref.round rc A) (XoodooPlanes.vars2State (planes m)) := by
  intro n
  induction n with
  | zero => intro m i _ _; exact ⟨m, rfl, fun _ _ => rfl, by rw [List.take_zero]; rfl⟩
  | succ n ih =>
    intro m i hm hi
    have hc : cs[i]? = some cs[i] := List.getElem?_eq_getElem (by omega)
    obtain ⟨h0, h1⟩ := quads_get cs i _ hc
    have e := vldRc_eq (quads cs) (mRoundA m) i cs[i] hm h0 h1
    obtain ⟨m', e1, e2, e3⟩ := ih (mRoundB (withRc (mRoundA m) cs[i])) (i + 1)
      (show m.rc + 8 = 8 * (i + 1) by omega) (by omega)
    refine ⟨m', ?_, fun k hk => (e2 k hk).trans (roundB_frame m _ k hk), ?_⟩
    · rw [mRounds, mRound, e]
      exact e1
    · rw [e3, List.drop_eq_getElem_cons (show i < cs.length by omega), List.take_succ_cons, List.foldl_cons]
      congr 1
      rw [XoodooPlanes.vars2State_eq, toV_round, XoodooPlanes.toV_eq, Xoodoo.Opt.round_eq, Xoodoo.Opt.vars2State_state2Vars]

end XoodooNeon
