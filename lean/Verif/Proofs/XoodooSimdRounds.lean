import Verif.Model.XoodooSimd
import Verif.Proofs.XoodooBytes
import Mathlib.Tactic.IntervalCases

/-!
The round macros of the SIMD implementations of Xoodoo, on each state.
-/

namespace XoodooSimd

open Xoodoo (Lane Lanes rotl32)
open Simd32
open KeccakP1600 (put)

variable {α : Type} {N : Nat}

/-- The operations act on the lane given by the projection `f` as the operations of the serial implementation. -/
structure Ok (O : Ops α) (f : α → Lane) : Prop where
  xor : ∀ a b, f (O.xor a b) = f a ^^^ f b
  andnot : ∀ a b, f (O.andnot a b) = ~~~ f a &&& f b
  rol : ∀ a o, 0 < o → o < 32 → f (O.rol a o) = rotl32 (f a) o
  rol8 : ∀ a, f (O.rol8 a) = rotl32 (f a) 8
  const : ∀ c, f (O.const c) = c

structure Ok512 (O : Ops512 α) (f : α → Lane) : Prop where
  xor : ∀ a b, f (O.xor a b) = f a ^^^ f b
  xor3 : ∀ a b c, f (O.xor3 a b c) = f a ^^^ f b ^^^ f c
  chi : ∀ a b c, f (O.chi a b c) = f a ^^^ (~~~ f b &&& f c)
  rol : ∀ a o, 0 < o → o < 32 → f (O.rol a o) = rotl32 (f a) o
  const : ∀ c, f (O.const c) = c

/-- The state held by the variables, when lane `x` of plane 1 is in `a1 (i x)`, and lane `x` of plane 2 in `a2 (j x)`. -/
def toV (f : α → Lane) (i j : Fin 4 → Fin 4) (s : Vars α) : Xoodoo.Opt.V :=
  ⟨f (s.a0 0), f (s.a0 1), f (s.a0 2), f (s.a0 3), f (s.a1 (i 0)), f (s.a1 (i 1)), f (s.a1 (i 2)), f (s.a1 (i 3)),
    f (s.a2 (j 0)), f (s.a2 (j 1)), f (s.a2 (j 2)), f (s.a2 (j 3))⟩

def Inj (i : Fin 4 → Fin 4) : Prop := ∀ x y, i x = i y ↔ x = y

theorem toV_assign (f : α → Lane) {i j : Fin 4 → Fin 4} (hi : Inj i) (hj : Inj j) (s : Vars α)
    (a00 a01 a02 a03 a10 a11 a12 a13 a20 a21 a22 a23 : α) :
    toV f i j (s.assign i j a00 a01 a02 a03 a10 a11 a12 a13 a20 a21 a22 a23) =
      ⟨f a00, f a01, f a02, f a03, f a10, f a11, f a12, f a13, f a20, f a21, f a22, f a23⟩ := by
  simp [toV, Vars.assign, put, hi _ _, hj _ _]

theorem toV_west (f : α → Lane) {i w : Fin 4 → Fin 4} (j : Fin 4 → Fin 4) (h : w 0 = i 3 ∧ w 1 = i 0 ∧ w 2 = i 1 ∧ w 3 = i 2) (s : Vars α) :
    toV f w j s = { toV f i j s with a10 := (toV f i j s).a13, a11 := (toV f i j s).a10, a12 := (toV f i j s).a11, a13 := (toV f i j s).a12 } := by
  simp [toV, h]

theorem toV_east (f : α → Lane) (w : Fin 4 → Fin 4) {j j' : Fin 4 → Fin 4} (h : j' 0 = j 2 ∧ j' 1 = j 3 ∧ j' 2 = j 0 ∧ j' 3 = j 1) (s : Vars α) :
    toV f w j' s = { toV f w j s with a20 := (toV f w j s).a22, a21 := (toV f w j s).a23, a22 := (toV f w j s).a20, a23 := (toV f w j s).a21 } := by
  simp [toV, h]

section
variable {O : Ops α} {f : α → Lane} (h : Ok O f) {i w j j' : Fin 4 → Fin 4}
include h

theorem theta_eq (s : Vars α) (hi : Inj i) (hj : Inj j) : toV f i j (theta O i j s) = Xoodoo.Opt.theta (toV f i j s) := by
  rw [theta, toV_assign f hi hj]
  simp only [h.xor, h.rol, Nat.reduceLT, Xoodoo.Opt.theta, toV, BitVec.xor_assoc]

theorem rhoWest_eq (s : Vars α) (hi : Inj i) (hj : Inj j) (hw : w 0 = i 3 ∧ w 1 = i 0 ∧ w 2 = i 1 ∧ w 3 = i 2) :
    toV f w j (rhoWest O i j s) = Xoodoo.Opt.rhoWest (toV f i j s) := by
  rw [toV_west f j hw, rhoWest, toV_assign f hi hj]
  simp only [h.rol, Nat.reduceLT, Xoodoo.Opt.rhoWest, toV]

theorem iota_eq (s : Vars α) (rc : Lane) : toV f w j (iota O rc s) = Xoodoo.Opt.iota rc (toV f w j s) := by
  simp [iota, put, toV, h.xor, h.const, Xoodoo.Opt.iota]

theorem chi_eq (s : Vars α) (hw : Inj w) (hj : Inj j) : toV f w j (chi O w j s) = Xoodoo.Opt.chi (toV f w j s) := by
  rw [chi, toV_assign f hw hj]
  simp only [h.xor, h.andnot, Xoodoo.Opt.chi, toV]

theorem rhoEast_eq (s : Vars α) (hw : Inj w) (hj : Inj j) (hj' : j' 0 = j 2 ∧ j' 1 = j 3 ∧ j' 2 = j 0 ∧ j' 3 = j 1) :
    toV f w j' (rhoEast O w j s) = Xoodoo.Opt.rhoEast (toV f w j s) := by
  rw [toV_east f w hj', rhoEast, toV_assign f hw hj]
  simp only [h.rol, h.rol8, Nat.reduceLT, Xoodoo.Opt.rhoEast, toV]

end

section
variable {O : Ops512 α} {f : α → Lane} (h : Ok512 O f) {i w j j' : Fin 4 → Fin 4}
include h

theorem thetaIota_eq (s : Vars α) (rc : Lane) (hi : Inj i) (hj : Inj j) :
    toV f i j (thetaIota O i j rc s) = Xoodoo.Opt.iota rc (Xoodoo.Opt.theta (toV f i j s)) := by
  rw [thetaIota, toV_assign f hi hj]
  simp only [h.xor, h.xor3, h.const, h.rol, Nat.reduceLT, Xoodoo.Opt.theta, Xoodoo.Opt.iota, toV]

theorem rhoWest512_eq (s : Vars α) (hi : Inj i) (hj : Inj j) (hw : w 0 = i 3 ∧ w 1 = i 0 ∧ w 2 = i 1 ∧ w 3 = i 2) :
    toV f w j (rhoWest512 O i j s) = Xoodoo.Opt.rhoWest (toV f i j s) := by
  rw [toV_west f j hw, rhoWest512, toV_assign f hi hj]
  simp only [h.rol, Nat.reduceLT, Xoodoo.Opt.rhoWest, toV]

theorem chi512_eq (s : Vars α) (hw : Inj w) (hj : Inj j) : toV f w j (chi512 O w j s) = Xoodoo.Opt.chi (toV f w j s) := by
  rw [chi512, toV_assign f hw hj]
  simp only [h.chi, Xoodoo.Opt.chi, toV]

theorem rhoEast512_eq (s : Vars α) (hw : Inj w) (hj : Inj j) (hj' : j' 0 = j 2 ∧ j' 1 = j 3 ∧ j' 2 = j 0 ∧ j' 3 = j 1) :
    toV f w j' (rhoEast512 O w j s) = Xoodoo.Opt.rhoEast (toV f w j s) := by
  rw [toV_east f w hj', rhoEast512, toV_assign f hw hj]
  simp only [h.rol, Nat.reduceLT, Xoodoo.Opt.rhoEast, toV]

end

/-- A round macro called with these arguments applies one round to the state. -/
def RoundOk (f : α → Lane) (R : (Fin 4 → Fin 4) → (Fin 4 → Fin 4) → (Fin 4 → Fin 4) → Lane → Vars α → Vars α) : Prop :=
  ∀ (i w j j' : Fin 4 → Fin 4) (rc : Lane) (s : Vars α), Inj i → Inj w → Inj j →
    (w 0 = i 3 ∧ w 1 = i 0 ∧ w 2 = i 1 ∧ w 3 = i 2) → (j' 0 = j 2 ∧ j' 1 = j 3 ∧ j' 2 = j 0 ∧ j' 3 = j 1) →
    toV f w j' (R i w j rc s) = Xoodoo.Opt.round rc (toV f i j s)

theorem round_ok {O : Ops α} {f : α → Lane} (h : Ok O f) : RoundOk f (round O) := by
  intro i w j j' rc s hi hw hj a a'
  rw [round, rhoEast_eq h _ hw hj a', chi_eq h _ hw hj, iota_eq h, rhoWest_eq h _ hi hj a, theta_eq h _ hi hj]
  rfl

theorem iota_rhoWest (rc : Lane) (v : Xoodoo.Opt.V) :
    Xoodoo.Opt.rhoWest (Xoodoo.Opt.iota rc v) = Xoodoo.Opt.iota rc (Xoodoo.Opt.rhoWest v) := rfl

theorem round512_ok {O : Ops512 α} {f : α → Lane} (h : Ok512 O f) : RoundOk f (round512 O) := by
  intro i w j j' rc s hi hw hj a a'
  rw [round512, rhoEast512_eq h _ hw hj a', chi512_eq h _ hw hj, rhoWest512_eq h _ hi hj a, thetaIota_eq h _ _ hi hj,
    iota_rhoWest]
  rfl

theorem inj0 : Inj ![0, 1, 2, 3] := by unfold Inj; decide
theorem inj1 : Inj ![1, 2, 3, 0] := by unfold Inj; decide
theorem inj2 : Inj ![2, 3, 0, 1] := by unfold Inj; decide
theorem inj3 : Inj ![3, 0, 1, 2] := by unfold Inj; decide

/-- The lanes of one state, in the order of the memory. -/
def lanesOf (f : α → Lane) (s : Vars α) : Lanes := Xoodoo.Opt.vars2State (toV f ![0, 1, 2, 3] ![0, 1, 2, 3] s)

theorem state2Vars_vars2State (v : Xoodoo.Opt.V) : Xoodoo.Opt.state2Vars (Xoodoo.Opt.vars2State v) = v := rfl

section
variable {f : α → Lane} {R : (Fin 4 → Fin 4) → (Fin 4 → Fin 4) → (Fin 4 → Fin 4) → Lane → Vars α → Vars α} (h : RoundOk f R)
include h

theorem step0 (rc : Lane) (s : Vars α) : toV f ![3, 0, 1, 2] ![2, 3, 0, 1] (R ![0, 1, 2, 3] ![3, 0, 1, 2] ![0, 1, 2, 3] rc s) =
    Xoodoo.Opt.round rc (toV f ![0, 1, 2, 3] ![0, 1, 2, 3] s) :=
  h _ _ _ _ _ _ inj0 inj3 inj0 (by decide) (by decide)

theorem step3 (rc : Lane) (s : Vars α) : toV f ![2, 3, 0, 1] ![0, 1, 2, 3] (R ![3, 0, 1, 2] ![2, 3, 0, 1] ![2, 3, 0, 1] rc s) =
    Xoodoo.Opt.round rc (toV f ![3, 0, 1, 2] ![2, 3, 0, 1] s) :=
  h _ _ _ _ _ _ inj3 inj2 inj2 (by decide) (by decide)

theorem step2 (rc : Lane) (s : Vars α) : toV f ![1, 2, 3, 0] ![2, 3, 0, 1] (R ![2, 3, 0, 1] ![1, 2, 3, 0] ![0, 1, 2, 3] rc s) =
    Xoodoo.Opt.round rc (toV f ![2, 3, 0, 1] ![0, 1, 2, 3] s) :=
  h _ _ _ _ _ _ inj2 inj1 inj0 (by decide) (by decide)

theorem step1 (rc : Lane) (s : Vars α) : toV f ![0, 1, 2, 3] ![0, 1, 2, 3] (R ![1, 2, 3, 0] ![0, 1, 2, 3] ![2, 3, 0, 1] rc s) =
    Xoodoo.Opt.round rc (toV f ![1, 2, 3, 0] ![2, 3, 0, 1] s) :=
  h _ _ _ _ _ _ inj1 inj0 inj2 (by decide) (by decide)

theorem rounds12_eq (s : Vars α) : lanesOf f (rounds12 R s) = Xoodoo.Ref.onWords 12 (lanesOf f s) := by
  rw [← Xoodoo.Opt.permute12_eq, lanesOf, lanesOf, rounds12, Xoodoo.Opt.permute12]
  simp only [step0 h, step1 h, step2 h, step3 h, state2Vars_vars2State]

theorem rounds6_eq (s : Vars α) : lanesOf f (rounds6 R s) =
    Xoodoo.Ref.onWords 6 (Xoodoo.Opt.vars2State (toV f ![2, 3, 0, 1] ![0, 1, 2, 3] s)) := by
  rw [← Xoodoo.Opt.permute6_eq, lanesOf, rounds6, Xoodoo.Opt.permute6]
  simp only [step0 h, step1 h, step2 h, step3 h, state2Vars_vars2State]

end

/-! ### The operations -/

theorem rotl32_eq (a : Lane) (o : Nat) (h0 : 0 < o) (h1 : o < 32) : a <<< o ||| a >>> (32 - o) = rotl32 a o := by
  rw [rotl32, Nat.mod_eq_of_lt h1, Nat.mod_eq_of_lt (show 32 - o < 32 by omega)]
  apply BitVec.eq_of_getLsbD_eq
  intro t ht
  simp only [BitVec.getLsbD_or, BitVec.getLsbD_xor, BitVec.getLsbD_shiftLeft, BitVec.getLsbD_ushiftRight, ht, decide_true, Bool.true_and]
  by_cases hc : t < o
  · simp [hc]
  · have : a.getLsbD (32 - o + t) = false := BitVec.getLsbD_of_ge _ _ (by omega)
    simp [this]

theorem rotateLeft_eq (a : Lane) (o : Nat) (h0 : 0 < o) (h1 : o < 32) : a.rotateLeft o = rotl32 a o := by
  rw [← rotl32_eq a o h0 h1, BitVec.rotateLeft_def, Nat.mod_eq_of_lt h1]

theorem ops4_ok (l : Fin 4) : Ok ops4 (fun v => v l) :=
  ⟨fun _ _ => rfl, fun _ _ => rfl, fun _ o h0 h1 => rotl32_eq _ o h0 h1, fun _ => rotl32_eq _ 8 (by omega) (by omega), fun _ => rfl⟩

theorem ops4xop_ok (l : Fin 4) : Ok ops4xop (fun v => v l) :=
  ⟨fun _ _ => rfl, fun _ _ => rfl, fun _ o h0 h1 => rotateLeft_eq _ o h0 h1, fun _ => rotateLeft_eq _ 8 (by omega) (by omega), fun _ => rfl⟩

theorem wordOfBytes4 (b0 b1 b2 b3 : Byte) (k : Nat) (hk : k < 4) :
    Xoodoo.byteOf (Xoodoo.wordOfBytes [b0, b1, b2, b3]) k = [b0, b1, b2, b3].getD k 0 := Xoodoo.byteOf_wordOfBytes _ _ hk

theorem byteOf_rotl8 (a : Lane) (k : Nat) (hk : k < 4) : Xoodoo.byteOf (rotl32 a 8) k = Xoodoo.byteOf a ((k + 3) % 4) := by
  rw [← rotl32_eq a 8 (by omega) (by omega)]
  apply KeccakP1600.byte_ext
  intro t ht
  rw [Xoodoo.getLsbD_byteOf _ _ _ ht, Xoodoo.getLsbD_byteOf _ _ _ ht]
  simp only [BitVec.getLsbD_or, BitVec.getLsbD_shiftLeft, BitVec.getLsbD_ushiftRight]
  rcases Nat.eq_zero_or_pos k with rfl | h0
  · simp [show t < 32 by omega, ht]
  · have e : (k + 3) % 4 = k - 1 := by omega
    have : a.getLsbD (32 - 8 + (8 * k + t)) = false := BitVec.getLsbD_of_ge _ _ (by omega)
    rw [this, e, show 8 * k + t - 8 = 8 * (k - 1) + t by omega]
    simp [show 8 * k + t < 32 by omega, show ¬ 8 * k + t < 8 by omega]

theorem shuffle_rho8 (a : Vec 8) (l : Fin 8) : shuffleEpi8 a rho8 l = rotl32 (a l) 8 := by
  apply Xoodoo.lane_ext
  intro k hk
  rw [byteOf_rotl8 _ _ hk, shuffleEpi8, Xoodoo.byteOf_wordOfBytes _ _ hk]
  fin_cases l <;> (interval_cases k <;> rfl)

theorem ops8_ok (l : Fin 8) : Ok ops8 (fun v => v l) :=
  ⟨fun _ _ => rfl, fun _ _ => rfl, fun _ o h0 h1 => rotl32_eq _ o h0 h1, fun a => shuffle_rho8 a l, fun _ => rfl⟩

theorem ternary_xor (a b c : Vec N) (l : Fin N) : ternarylogic a b c 0x96 l = a l ^^^ b l ^^^ c l := by
  apply BitVec.eq_of_getLsbD_eq
  intro t ht
  simp only [ternarylogic, List.range, List.range.loop, List.foldl]
  simp (decide := true) only [Nat.testBit, Nat.shiftRight_eq_div_pow, if_true, if_false, BitVec.getLsbD_or, BitVec.getLsbD_and, BitVec.getLsbD_not, BitVec.getLsbD_xor, ht,
    decide_true, Bool.true_and, BitVec.getLsbD_zero, BitVec.ofNat_eq_ofNat]
  cases (a l).getLsbD t <;> cases (b l).getLsbD t <;> cases (c l).getLsbD t <;> rfl

theorem ternary_chi (a b c : Vec N) (l : Fin N) : ternarylogic a b c 0xD2 l = a l ^^^ (~~~ b l &&& c l) := by
  apply BitVec.eq_of_getLsbD_eq
  intro t ht
  simp only [ternarylogic, List.range, List.range.loop, List.foldl]
  simp (decide := true) only [Nat.testBit, Nat.shiftRight_eq_div_pow, if_true, if_false, BitVec.getLsbD_or, BitVec.getLsbD_and, BitVec.getLsbD_not, BitVec.getLsbD_xor, ht,
    decide_true, Bool.true_and, BitVec.getLsbD_zero, BitVec.ofNat_eq_ofNat]
  cases (a l).getLsbD t <;> cases (b l).getLsbD t <;> cases (c l).getLsbD t <;> rfl

theorem ops512_ok (l : Fin N) : Ok512 (ops512 (N := N)) (fun v => v l) :=
  ⟨fun _ _ => rfl, fun a b c => ternary_xor a b c l, fun a b c => ternary_chi a b c l, fun _ o h0 h1 => rotateLeft_eq _ o h0 h1, fun _ => rfl⟩

end XoodooSimd
