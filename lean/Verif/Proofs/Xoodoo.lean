import Verif.Model.Xoodoo
import Verif.Spec.Xoodoo
import Verif.Proofs.KeccakP
import Mathlib.Data.Fintype.Pi
import Mathlib.Data.Fintype.EquivFin

/-!
Lemmas: the Xoodoo permutation, reference implementation against the specification, optimised implementation
against the reference, and invertibility of the step mappings.
-/

namespace Xoodoo

open Spec.Xoodoo (StateArray Plane)
open KeccakP1600 (loopFrom put loopM loopFrom_foldl getElem?_flatMap_const getElem?_ofBytes ofBytes_flatMap)

/-- lane number of column `x`, plane `y` -/
def lane (x : Fin 4) (y : Fin 3) : Fin 12 := ⟨4 * y.val + x.val, by omega⟩

/-- the state array of 12 lanes -/
def arr (A : Lanes) : StateArray := fun x y z => (A (lane x y)).getLsbD z.val

theorem forall_fin12 {p : Fin 12 → Prop} (h : ∀ x y, p (lane x y)) (i : Fin 12) : p i := by
  have := h ⟨i.val % 4, by omega⟩ ⟨i.val / 4, by omega⟩
  have e : lane ⟨i.val % 4, by omega⟩ ⟨i.val / 4, by omega⟩ = i := by
    apply Fin.ext; simp only [lane]; omega
  rwa [e] at this

theorem arr_injective : Function.Injective arr := by
  intro A B h
  funext i
  refine forall_fin12 (p := fun i => A i = B i) (fun x y => ?_) i
  apply BitVec.eq_of_getLsbD_eq
  intro z hz
  exact congrFun (congrFun (congrFun h x) y) ⟨z, hz⟩

/-- the lanes of a state array -/
def unarr (S : StateArray) : Lanes :=
  fun i => BitVec.ofNat 32 (Bits.toNat (List.ofFn (S ⟨i.val % 4, by omega⟩ ⟨i.val / 4, by omega⟩)))

theorem arr_unarr (S : StateArray) : arr (unarr S) = S := by
  funext x y z
  have e1 : (⟨(lane x y).val % 4, by omega⟩ : Fin 4) = x := by apply Fin.ext; simp only [lane]; omega
  have e2 : (⟨(lane x y).val / 4, by omega⟩ : Fin 3) = y := by apply Fin.ext; simp only [lane]; omega
  simp only [arr, unarr, e1, e2]
  rw [BitVec.getLsbD_ofNat, Bits.testBit_toNat]
  rw [List.getD_eq_getElem?_getD, List.getElem?_ofFn]
  simp only [z.isLt, dif_pos, decide_true, Bool.true_and, Option.getD_some]

theorem getLsbD_rotl32 (a : Lane) (o : Nat) (h0 : 0 < o) (ho : o < 32) (z : Fin 32) :
    (rotl32 a o).getLsbD z.val = a.getLsbD (z - Fin.ofNat 32 o).val := by
  have hz := z.isLt
  have hv : (z - Fin.ofNat 32 o).val = (32 - o + z.val) % 32 := by
    simp [Fin.sub_def, Fin.ofNat, Nat.mod_eq_of_lt ho]
  rw [hv]
  unfold rotl32
  rw [Nat.mod_eq_of_lt ho, Nat.mod_eq_of_lt (show 32 - o < 32 by omega)]
  simp only [BitVec.getLsbD_xor, BitVec.getLsbD_shiftLeft, BitVec.getLsbD_ushiftRight, hz,
    decide_true, Bool.true_and]
  by_cases h1 : z.val < o
  · have : (32 - o + z.val) % 32 = 32 - o + z.val := by omega
    rw [this]; simp [h1]
  · have : (32 - o + z.val) % 32 = z.val - o := by omega
    rw [this]
    simp only [h1, decide_false, Bool.not_false, Bool.true_and]
    rw [BitVec.getLsbD_of_ge a (32 - o + z.val) (by omega), Bool.xor_false]

/-! ## step mappings of the reference implementation -/

theorem effect_lane (A : Lanes) (x : Fin 4) : Ref.effect A x.val =
    rotl32 (A (lane (x - 1) 0) ^^^ A (lane (x - 1) 1) ^^^ A (lane (x - 1) 2)) 5 ^^^
    rotl32 (A (lane (x - 1) 0) ^^^ A (lane (x - 1) 1) ^^^ A (lane (x - 1) 2)) 14 := by
  fin_cases x <;> rfl

theorem theta_lane (A : Lanes) : ∀ x y, Ref.theta A (lane x y) = A (lane x y) ^^^ Ref.effect A x.val := by
  intro x y
  fin_cases x <;> fin_cases y <;> rfl

theorem arr_theta (A : Lanes) : arr (Ref.theta A) = Spec.Xoodoo.theta (arr A) := by
  funext x y z
  simp only [arr, theta_lane, BitVec.getLsbD_xor, effect_lane]
  rw [getLsbD_rotl32 _ _ (by omega) (by omega), getLsbD_rotl32 _ _ (by omega) (by omega)]
  simp only [BitVec.getLsbD_xor]
  rfl

theorem rhoWest_lane (A : Lanes) : ∀ x y, Ref.rhoWest A (lane x y) =
    if y = 0 then A (lane x 0) else if y = 1 then A (lane (x - 1) 1) else rotl32 (A (lane x 2)) 11 := by
  intro x y
  fin_cases x <;> fin_cases y <;> rfl

theorem fin32_sub_zero (z : Fin 32) : z - 0 = z := by
  apply Fin.ext; simp only [Fin.sub_def, Fin.val_zero]; omega

theorem fin4_sub_zero : ∀ x : Fin 4, x - 0 = x := by decide

theorem arr_rhoWest (A : Lanes) : arr (Ref.rhoWest A) = Spec.Xoodoo.rhoWest (arr A) := by
  funext x y z
  simp only [arr, rhoWest_lane, Spec.Xoodoo.rhoWest, Spec.Xoodoo.ofPlanes, Spec.Xoodoo.plane, Spec.Xoodoo.shift,
    fin32_sub_zero, fin4_sub_zero]
  split
  · rfl
  · split
    · rfl
    · rw [getLsbD_rotl32 _ _ (by omega) (by omega)]; rfl

theorem RC_bits : ∀ i : Fin 12, ∀ z : Fin 32,
    (RC.getD i.val 0).getLsbD z.val = (Spec.Xoodoo.roundConstant i.val).testBit z.val := by decide +kernel

theorem arr_iota (A : Lanes) (k : Nat) (hk : k < 12) :
    arr (Ref.iota (RC.getD k 0) A) = Spec.Xoodoo.iota k (arr A) := by
  funext x y z
  simp only [arr, Ref.iota, put, Spec.Xoodoo.iota]
  by_cases h : x = 0 ∧ y = 0
  · obtain ⟨rfl, rfl⟩ := h
    have e : (0 : Fin 12) = lane 0 0 := rfl
    simp only [e, if_true, and_self, BitVec.getLsbD_xor]
    rw [RC_bits ⟨k, hk⟩ z]
  · have : ¬ lane x y = 0 := by
      intro h'
      apply h
      have := congrArg Fin.val h'
      simp only [lane, Fin.val_zero] at this
      constructor <;> apply Fin.ext <;> simp <;> omega
    rw [if_neg this, if_neg h]

theorem chi_lane (A : Lanes) : ∀ x y, Ref.chi A (lane x y) =
    A (lane x y) ^^^ (~~~ A (lane x (y + 1)) &&& A (lane x (y + 2))) := by
  intro x y
  fin_cases x <;> fin_cases y <;> rfl

theorem arr_chi (A : Lanes) : arr (Ref.chi A) = Spec.Xoodoo.chi (arr A) := by
  funext x y z
  simp only [arr, chi_lane, Spec.Xoodoo.chi, BitVec.getLsbD_xor, BitVec.getLsbD_and, BitVec.getLsbD_not, z.isLt,
    decide_true, Bool.true_and, Bool.xor_true]

theorem rhoEast_lane (A : Lanes) : ∀ x y, Ref.rhoEast A (lane x y) =
    if y = 0 then A (lane x 0) else if y = 1 then rotl32 (A (lane x 1)) 1
    else rotl32 (A (lane (x - 2) 2)) 8 := by
  intro x y
  fin_cases x <;> fin_cases y <;> rfl

theorem arr_rhoEast (A : Lanes) : arr (Ref.rhoEast A) = Spec.Xoodoo.rhoEast (arr A) := by
  funext x y z
  simp only [arr, rhoEast_lane, Spec.Xoodoo.rhoEast, Spec.Xoodoo.ofPlanes, Spec.Xoodoo.plane, Spec.Xoodoo.shift,
    fin4_sub_zero]
  split
  · rfl
  · split
    · rw [getLsbD_rotl32 _ _ (by omega) (by omega)]; rfl
    · rw [getLsbD_rotl32 _ _ (by omega) (by omega)]; rfl

theorem arr_round (A : Lanes) (k : Nat) (hk : k < 12) :
    arr (Ref.round (RC.getD k 0) A) = Spec.Xoodoo.round (arr A) k := by
  rw [Ref.round, arr_rhoEast, arr_chi, arr_iota _ _ hk, arr_rhoWest, arr_theta]
  rfl

theorem foldl_arr (l : List Nat) (hl : ∀ i ∈ l, i < 12) (A : Lanes) :
    arr (l.foldl (fun A i => Ref.round (RC.getD i 0) A) A) = l.foldl Spec.Xoodoo.round (arr A) := by
  induction l generalizing A with
  | nil => rfl
  | cons i l ih =>
    rw [List.foldl_cons, List.foldl_cons, ih (fun j hj => hl j (by simp [hj])), arr_round _ _ (hl i (by simp))]

theorem arr_onWords (A : Lanes) (nr : Nat) (hnr : nr ≤ 12) :
    arr (Ref.onWords nr A) = Spec.Xoodoo.rounds nr (arr A) := by
  rw [Ref.onWords, if_pos hnr, loopFrom_foldl, foldl_arr]
  · rfl
  · intro i hi
    rw [List.mem_range'_1] at hi
    omega

/-! ## bytes, lanes and bits -/

theorem getLsbD_wordOfBytes (b : Bytes) (z : Fin 32) :
    (wordOfBytes b).getLsbD z.val = (b.getD (z.val / 8) 0).getLsbD (z.val % 8) := by
  have hz := z.isLt
  have hb : ∀ j, 8 ≤ j → ∀ v : Byte, v.getLsbD j = false := fun j hj v => BitVec.getLsbD_of_ge v j hj
  simp only [wordOfBytes, loopFrom, BitVec.getLsbD_or, BitVec.getLsbD_shiftLeft, BitVec.getLsbD_setWidth, hz,
    decide_true, Bool.true_and, BitVec.ofNat_eq_ofNat, BitVec.getLsbD_zero, Bool.false_or]
  generalize hq : z.val / 8 = q
  have hq8 : q < 4 := by omega
  have hr : z.val = 8 * q + z.val % 8 := by omega
  generalize z.val % 8 = r at *
  have hr8 : r < 8 := by omega
  rw [hr]
  clear hr hq hz
  have key : ∀ j : Nat, (!decide (8 * q + r < 8 * j) && (decide (8 * q + r - 8 * j < 32) &&
      (b.getD j 0#8).getLsbD (8 * q + r - 8 * j))) = (decide (j = q) && (b.getD q 0#8).getLsbD r) := by
    intro j
    rcases Nat.lt_trichotomy j q with h | h | h
    · have h1 : ¬ j = q := by omega
      rw [hb _ (by omega)]; simp [h1]
    · subst h
      have e1 : ¬ (8 * j + r < 8 * j) := by omega
      have e2 : 8 * j + r - 8 * j = r := by omega
      have e3 : r < 32 := by omega
      simp [e1, e2, e3]
    · have h1 : ¬ j = q := by omega
      have h2 : 8 * q + r < 8 * j := by omega
      simp [h1, h2]
  simp only [Nat.zero_add, Nat.reduceAdd, key]
  have : q = 0 ∨ q = 1 ∨ q = 2 ∨ q = 3 := by omega
  rcases this with h | h | h | h <;> subst h <;> simp

theorem length_bytesOfWord (w : Lane) : (bytesOfWord w).length = 4 := by simp [bytesOfWord]

theorem ofBytes_bytesOfWord (w : Lane) :
    Bits.ofBytes (bytesOfWord w) = (List.finRange 32).map fun z => w.getLsbD z.val := by
  have hbyte : ∀ j : Nat, j < 4 → ∀ k, k < 8 →
      (((w >>> (8 * j)) &&& 0xFF).setWidth 8).getLsbD k = w.getLsbD (8 * j + k) := by
    intro j hj k hk
    have hc : ∀ k : Fin 8, (0xFF : Lane).getLsbD k.val = true := by decide
    simp only [BitVec.getLsbD_setWidth, hk, decide_true, Bool.true_and, BitVec.getLsbD_and,
      BitVec.getLsbD_ushiftRight, hc ⟨k, hk⟩, Bool.and_true]
  have hb : ∀ j, j < 4 → Bits.ofByte (((w >>> (8 * j)) &&& 0xFF).setWidth 8)
      = (List.range 8).map fun k => w.getLsbD (8 * j + k) := by
    intro j hj
    unfold Bits.ofByte
    apply List.map_congr_left
    intro k hk
    exact hbyte j hj k (List.mem_range.1 hk)
  have h1 : Bits.ofBytes (bytesOfWord w)
      = (List.range 4).flatMap fun j => (List.range 8).map fun k => w.getLsbD (8 * j + k) := by
    unfold Bits.ofBytes bytesOfWord
    rw [List.flatMap_map]
    apply List.flatMap_congr
    intro j hj
    exact hb j (List.mem_range.1 hj)
  rw [h1]
  generalize w.getLsbD = g
  rfl

theorem length_bytesOfLanes (A : Lanes) : (bytesOfLanes A).length = 48 := by
  simp [bytesOfLanes, List.length_flatMap, length_bytesOfWord]

theorem finRange12 : List.finRange 12
    = (List.finRange 3).flatMap fun y => (List.finRange 4).map fun x => lane x y := by decide

theorem ofBytes_bytesOfLanes (A : Lanes) : Bits.ofBytes (bytesOfLanes A) = Spec.Xoodoo.toString (arr A) := by
  rw [bytesOfLanes, ofBytes_flatMap, finRange12, List.flatMap_assoc, Spec.Xoodoo.toString]
  apply List.flatMap_congr
  intro y _
  rw [List.flatMap_map]
  apply List.flatMap_congr
  intro x _
  rw [ofBytes_bytesOfWord]
  rfl

theorem arr_lanesOfBytes (s : Bytes) : arr (lanesOfBytes s) = Spec.Xoodoo.toArray (Bits.ofBytes s) := by
  funext x y z
  simp only [arr, lanesOfBytes, getLsbD_wordOfBytes, Spec.Xoodoo.toArray, List.getD_eq_getElem?_getD,
    getElem?_ofBytes, List.getElem?_drop]
  have e1 : (lane x y).val * 4 + z.val / 8 = (32 * (4 * y.val + x.val) + z.val) / 8 := by
    simp only [lane]; omega
  have e2 : (32 * (4 * y.val + x.val) + z.val) % 8 = z.val % 8 := by omega
  rw [e1, e2]
  cases s[(32 * (4 * y.val + x.val) + z.val) / 8]? <;> simp

theorem toArray_toString (S : StateArray) : Spec.Xoodoo.toArray (Spec.Xoodoo.toString S) = S := by
  funext x y z
  have hl : ∀ j : Fin 3, ((List.finRange 4).flatMap fun i => (List.finRange 32).map (S i j)).length = 128 := by
    intro j; simp [List.length_flatMap]
  have e : 32 * (4 * y.val + x.val) + z.val = y.val * 128 + (x.val * 32 + z.val) := by omega
  rw [Spec.Xoodoo.toArray, List.getD_eq_getElem?_getD, Spec.Xoodoo.toString, e,
    getElem?_flatMap_const _ _ 128 hl _ _ (by omega)]
  simp only [List.getElem?_eq_getElem (show y.val < (List.finRange 3).length by simp), List.getElem_finRange,
    Option.bind_some]
  rw [getElem?_flatMap_const _ _ 32 (by simp) _ _ (by omega)]
  simp

theorem length_toString (S : StateArray) : (Spec.Xoodoo.toString S).length = 384 := by
  simp [Spec.Xoodoo.toString, List.length_flatMap]

theorem lanesOfBytes_bytesOfLanes (A : Lanes) : lanesOfBytes (bytesOfLanes A) = A := by
  apply arr_injective
  rw [arr_lanesOfBytes, ofBytes_bytesOfLanes, toArray_toString]

theorem toString_toArray (S : Bits) (hS : S.length = 384) :
    Spec.Xoodoo.toString (Spec.Xoodoo.toArray S) = S := by
  apply List.ext_getElem
  · rw [length_toString, hS]
  · intro i h1 h2
    rw [length_toString] at h1
    have := congrFun (congrFun (congrFun (toArray_toString (Spec.Xoodoo.toArray S)) ⟨i / 32 % 4, by omega⟩)
      ⟨i / 128, by omega⟩) ⟨i % 32, by omega⟩
    have e : 32 * (4 * (i / 128) + i / 32 % 4) + i % 32 = i := by omega
    simp only [Spec.Xoodoo.toArray, e] at this
    simp only [List.getD_eq_getElem?_getD, List.getElem?_eq_getElem h2, Option.getD_some] at this
    rw [List.getElem?_eq_getElem (by rw [length_toString]; exact h1)] at this
    exact this

theorem bytesOfLanes_lanesOfBytes (s : Bytes) (hs : s.length = 48) : bytesOfLanes (lanesOfBytes s) = s := by
  apply Bits.ofBytes_injective
  rw [ofBytes_bytesOfLanes, arr_lanesOfBytes, toString_toArray]
  rw [Bits.length_ofBytes, hs]

/-! ## the optimised implementation -/

namespace Opt

theorem vars2State_state2Vars (A : Lanes) : vars2State (state2Vars A) = A := by
  funext i; fin_cases i <;> rfl

theorem theta_eq (A : Lanes) : theta (state2Vars A) = state2Vars (Ref.theta A) := rfl

theorem rhoWest_eq (A : Lanes) : rhoWest (state2Vars A) = state2Vars (Ref.rhoWest A) := rfl

theorem iota_eq (rc : Lane) (A : Lanes) : iota rc (state2Vars A) = state2Vars (Ref.iota rc A) := rfl

theorem rhoEast_eq (A : Lanes) : rhoEast (state2Vars A) = state2Vars (Ref.rhoEast A) := rfl

/-- the in-place χ on a column: the new values used for the second and third lane give the same result -/
theorem chi_col (a b c : Lane) :
    b ^^^ (~~~ c &&& (a ^^^ (~~~ b &&& c))) = b ^^^ (~~~ c &&& a) ∧
    c ^^^ (~~~ (a ^^^ (~~~ b &&& c)) &&& (b ^^^ (~~~ c &&& (a ^^^ (~~~ b &&& c))))) = c ^^^ (~~~ a &&& b) := by
  constructor <;> (apply BitVec.eq_of_getLsbD_eq; intro i hi) <;>
    simp only [BitVec.getLsbD_xor, BitVec.getLsbD_and, BitVec.getLsbD_not, hi, decide_true, Bool.true_and] <;>
    cases a.getLsbD i <;> cases b.getLsbD i <;> cases c.getLsbD i <;> rfl

theorem chi_eq (A : Lanes) : chi (state2Vars A) = state2Vars (Ref.chi A) := by
  simp only [chi, state2Vars, V.mk.injEq]
  refine ⟨rfl, rfl, rfl, rfl, ?_, ?_, ?_, ?_, ?_, ?_, ?_, ?_⟩
  · exact (chi_col _ _ _).1
  · exact (chi_col _ _ _).1
  · exact (chi_col _ _ _).1
  · exact (chi_col _ _ _).1
  · exact (chi_col _ _ _).2
  · exact (chi_col _ _ _).2
  · exact (chi_col _ _ _).2
  · exact (chi_col _ _ _).2

theorem round_eq (rc : Lane) (A : Lanes) : round rc (state2Vars A) = state2Vars (Ref.round rc A) := by
  rw [round, theta_eq, rhoWest_eq, iota_eq, chi_eq, rhoEast_eq, Ref.round]

theorem loop_eq (n a : Nat) (A : Lanes) : loopFrom (fun i v => round (RC.getD i 0) v) a n (state2Vars A)
    = state2Vars (loopFrom (fun i v => Ref.round (RC.getD i 0) v) a n A) := by
  induction n generalizing a A with
  | zero => rfl
  | succ n ih => rw [loopFrom, loopFrom, round_eq, ih]

theorem permuteNrounds_eq (nr : Nat) (A : Lanes) : permuteNrounds nr A = Ref.onWords nr A := by
  rw [permuteNrounds, Ref.onWords]
  split
  · rw [loop_eq, vars2State_state2Vars]
  · rw [vars2State_state2Vars]

theorem permute6_eq (A : Lanes) : permute6 A = Ref.onWords 6 A := by
  simp only [permute6, round_eq, vars2State_state2Vars]
  rfl

theorem permute12_eq (A : Lanes) : permute12 A = Ref.onWords 12 A := by
  simp only [permute12, round_eq, vars2State_state2Vars]
  rfl

end Opt

end Xoodoo

namespace Spec.Xoodoo

theorem xor_cancel : ∀ {a b c : Bool}, (a ^^ c) = (b ^^ c) → a = b := by decide

/-- adding to a plane two translates of itself -/
def Q (t : Fin 4) (v w : Fin 32) (P : Plane) : Plane := fun x z => P x z ^^ shift t v P x z ^^ shift t w P x z

theorem fin32_sub_sub (z t s : Fin 32) : z - t - s = z - s - t := by
  apply Fin.ext
  simp only [Fin.sub_def]
  omega

theorem fin32_double (z t : Fin 32) : z - t - t = z - (t + t) := by
  apply Fin.ext
  simp only [Fin.sub_def, Fin.add_def]
  omega

theorem fin4_double : ∀ x t : Fin 4, x - t - t = x - (t + t) := by decide

theorem Q_Q (t : Fin 4) (v w : Fin 32) (P : Plane) : Q t v w (Q t v w P) = Q (t + t) (v + v) (w + w) P := by
  funext x z
  simp only [Q, shift, fin4_double, fin32_double, fin32_sub_sub z w v]
  generalize P x z = a
  generalize P (x - t) (z - v) = b
  generalize P (x - t) (z - w) = c
  generalize P (x - (t + t)) (z - (v + v)) = d
  generalize P (x - (t + t)) (z - v - w) = e
  generalize P (x - (t + t)) (z - (w + w)) = f
  revert a b c d e f
  decide

theorem Q_inj_of_double {t : Fin 4} {v w : Fin 32} (h : Function.Injective (Q (t + t) (v + v) (w + w))) :
    Function.Injective (Q t v w) := by
  intro P P' hP
  apply h
  rw [← Q_Q, ← Q_Q, hP]

theorem shift_injective (t : Fin 4) (v : Fin 32) : Function.Injective (shift t v) := by
  intro P P' h
  funext x z
  have := congrFun (congrFun h (x + t)) (z + v)
  have e1 : x + t - t = x := (by decide : ∀ x t : Fin 4, x + t - t = x) x t
  have e2 : z + v - v = z := by
    apply Fin.ext
    simp only [Fin.sub_def, Fin.add_def]
    omega
  simpa only [shift, e1, e2] using this

theorem Q_last : Q 0 16 0 = shift 0 16 := by
  funext P x z
  have h4 : ∀ x : Fin 4, x - 0 = x := by decide
  have e2 : z - 0 = z := by
    apply Fin.ext; simp only [Fin.sub_def, Fin.val_zero]; omega
  simp only [Q, shift, h4, e2]
  generalize P x z = a
  generalize P x (z - 16) = b
  revert a b
  decide

theorem Q_inj : Function.Injective (Q 1 5 14) := by
  apply Q_inj_of_double
  show Function.Injective (Q 2 10 28)
  apply Q_inj_of_double
  show Function.Injective (Q 0 20 24)
  apply Q_inj_of_double
  show Function.Injective (Q 0 8 16)
  apply Q_inj_of_double
  show Function.Injective (Q 0 16 0)
  rw [Q_last]
  exact shift_injective 0 16

/-- the parity plane -/
def par (A : StateArray) : Plane := fun x z => A x 0 z ^^ A x 1 z ^^ A x 2 z

theorem theta_par (A : StateArray) (x : Fin 4) (y : Fin 3) (z : Fin 32) :
    theta A x y z = (A x y z ^^ (shift 1 5 (par A) x z ^^ shift 1 14 (par A) x z)) := rfl

theorem par_theta (A : StateArray) : par (theta A) = Q 1 5 14 (par A) := by
  funext x z
  simp only [Q]
  generalize h1 : shift 1 5 (par A) x z = e1
  generalize h2 : shift 1 14 (par A) x z = e2
  simp only [par, theta_par, h1, h2]
  clear h1 h2
  generalize A x 0 z = a0
  generalize A x 1 z = a1
  generalize A x 2 z = a2
  revert a0 a1 a2 e1 e2
  decide

theorem theta_injective : Function.Injective theta := by
  intro A B h
  have hP : par A = par B := by
    apply Q_inj
    rw [← par_theta, ← par_theta, h]
  funext x y z
  have := congrFun (congrFun (congrFun h x) y) z
  simp only [theta_par, hP] at this
  exact xor_cancel this

theorem ofPlanes_injective {f0 f1 f2 : Plane → Plane} (h0 : Function.Injective f0) (h1 : Function.Injective f1)
    (h2 : Function.Injective f2) :
    Function.Injective (fun A => ofPlanes (f0 (plane A 0)) (f1 (plane A 1)) (f2 (plane A 2))) := by
  intro A B h
  have e : ∀ y, plane (ofPlanes (f0 (plane A 0)) (f1 (plane A 1)) (f2 (plane A 2))) y =
      plane (ofPlanes (f0 (plane B 0)) (f1 (plane B 1)) (f2 (plane B 2))) y := fun y => congrArg (plane · y) h
  have e0 : plane A 0 = plane B 0 := h0 (e 0)
  have e1 : plane A 1 = plane B 1 := h1 (e 1)
  have e2 : plane A 2 = plane B 2 := h2 (e 2)
  funext x y z
  have : y = 0 ∨ y = 1 ∨ y = 2 := by revert y; decide
  rcases this with rfl | rfl | rfl
  · exact congrFun (congrFun e0 x) z
  · exact congrFun (congrFun e1 x) z
  · exact congrFun (congrFun e2 x) z

theorem rhoWest_injective : Function.Injective rhoWest :=
  ofPlanes_injective Function.injective_id (shift_injective 1 0) (shift_injective 0 11)

theorem rhoEast_injective : Function.Injective rhoEast :=
  ofPlanes_injective Function.injective_id (shift_injective 0 1) (shift_injective 2 8)

theorem iota_injective (k : Nat) : Function.Injective (iota k) := by
  intro A B h
  funext x y z
  have := congrFun (congrFun (congrFun h x) y) z
  simp only [iota] at this
  split at this
  · exact xor_cancel this
  · exact this

theorem chi_injective : Function.Injective chi := by
  intro A B h
  have key : ∀ a0 a1 a2 b0 b1 b2 : Bool,
      (a0 ^^ ((a1 ^^ true) && a2)) = (b0 ^^ ((b1 ^^ true) && b2)) →
      (a1 ^^ ((a2 ^^ true) && a0)) = (b1 ^^ ((b2 ^^ true) && b0)) →
      (a2 ^^ ((a0 ^^ true) && a1)) = (b2 ^^ ((b0 ^^ true) && b1)) → a0 = b0 := by decide +kernel
  funext x y z
  have g := fun y => congrFun (congrFun (congrFun h x) y) z
  have g0 := g y
  have g1 := g (y + 1)
  have g2 := g (y + 2)
  have f1 : ∀ x : Fin 3, x + 1 + 1 = x + 2 := by decide
  have f2 : ∀ x : Fin 3, x + 1 + 2 = x := by decide
  have f3 : ∀ x : Fin 3, x + 2 + 1 = x := by decide
  have f4 : ∀ x : Fin 3, x + 2 + 2 = x + 1 := by decide
  simp only [chi, f1, f2, f3, f4] at g0 g1 g2
  exact key _ _ _ _ _ _ g0 g1 g2

theorem round_injective (k : Nat) : Function.Injective (round · k) :=
  rhoEast_injective.comp (chi_injective.comp ((iota_injective k).comp (rhoWest_injective.comp theta_injective)))

theorem rounds_injective (nr : Nat) : Function.Injective (rounds nr) := by
  unfold rounds
  generalize List.range' (12 - nr) nr = l
  induction l with
  | nil => exact Function.injective_id
  | cons b l ih => exact ih.comp (round_injective b)

theorem rounds_bijective (nr : Nat) : Function.Bijective (rounds nr) :=
  Finite.injective_iff_bijective.1 (rounds_injective nr)

end Spec.Xoodoo
