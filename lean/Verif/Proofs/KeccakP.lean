import Verif.Model.KeccakP1600
import Verif.Spec.KeccakP
import Verif.Proofs.BitsLemmas
import Verif.Base.Tactics
import Mathlib.Data.Fintype.Basic

/-!
Lemmas: the reference implementation of Keccak-p[1600] against FIPS 202 section 3.
-/

namespace KeccakP1600

open Spec.KeccakP (StateArray)

/-- lane number of column `x`, plane `y` -/
def lane (x y : Fin 5) : Fin 25 := ⟨x.val + 5 * y.val, by omega⟩

/-- the state array of 25 lanes -/
def arr (A : Lanes) : StateArray := fun x y z => (A (lane x y)).getLsbD z.val

theorem forall_fin25 {p : Fin 25 → Prop} (h : ∀ x y : Fin 5, p (lane x y)) (i : Fin 25) : p i := by
  have := h ⟨i.val % 5, by omega⟩ ⟨i.val / 5, by omega⟩
  have e : lane ⟨i.val % 5, by omega⟩ ⟨i.val / 5, by omega⟩ = i := by
    apply Fin.ext; simp only [lane]; omega
  rwa [e] at this

theorem arr_injective : Function.Injective arr := by
  intro A B h
  funext i
  refine forall_fin25 (p := fun i => A i = B i) (fun x y => ?_) i
  apply BitVec.eq_of_getLsbD_eq
  intro z hz
  exact congrFun (congrFun (congrFun h x) y) ⟨z, hz⟩

/-- the lanes of a state array -/
def unarr (S : StateArray) : Lanes :=
  fun i => BitVec.ofNat 64 (Bits.toNat (List.ofFn (S ⟨i.val % 5, by omega⟩ ⟨i.val / 5, by omega⟩)))

theorem arr_unarr (S : StateArray) : arr (unarr S) = S := by
  funext x y z
  have e1 : (⟨(lane x y).val % 5, by omega⟩ : Fin 5) = x := by apply Fin.ext; simp only [lane]; omega
  have e2 : (⟨(lane x y).val / 5, by omega⟩ : Fin 5) = y := by apply Fin.ext; simp only [lane]; omega
  simp only [arr, unarr, e1, e2]
  rw [BitVec.getLsbD_ofNat, Bits.testBit_toNat]
  rw [List.getD_eq_getElem?_getD, List.getElem?_ofFn]
  simp only [z.isLt, dif_pos, decide_true, Bool.true_and, Option.getD_some]

/-! ## rotation -/

theorem getLsbD_rol64 (a : Lane) (o : Nat) (ho : o < 64) (z : Fin 64) :
    (Ref.rol64 a o).getLsbD z.val = a.getLsbD (z - Fin.ofNat 64 o).val := by
  have hz := z.isLt
  have hv : (z - Fin.ofNat 64 o).val = (64 - o + z.val) % 64 := by
    simp [Fin.sub_def, Fin.ofNat, Nat.mod_eq_of_lt ho]
  rw [hv]
  unfold Ref.rol64
  split
  · rename_i h
    simp only [BitVec.getLsbD_xor, BitVec.getLsbD_shiftLeft, BitVec.getLsbD_ushiftRight, hz,
      decide_true, Bool.true_and]
    by_cases h1 : z.val < o
    · have : (64 - o + z.val) % 64 = 64 - o + z.val := by omega
      rw [this]; simp [h1]
    · have : (64 - o + z.val) % 64 = z.val - o := by omega
      rw [this]
      simp only [h1, decide_false, Bool.not_false, Bool.true_and]
      rw [BitVec.getLsbD_of_ge a (64 - o + z.val) (by omega), Bool.xor_false]
  · rename_i h
    have : o = 0 := by omega
    subst this
    congr 1; omega

/-! ## step mappings -/

theorem theta_lane (A : Lanes) : ∀ x y : Fin 5, Ref.theta A (lane x y) = A (lane x y) ^^^ Ref.thetaD A x.val := by
  intro x y
  fin_cases x <;> fin_cases y <;> rfl

theorem thetaC_eq (A : Lanes) (x : Fin 5) : Ref.thetaC A x.val =
    0 ^^^ A (lane x 0) ^^^ A (lane x 1) ^^^ A (lane x 2) ^^^ A (lane x 3) ^^^ A (lane x 4) := by
  fin_cases x <;> rfl

theorem getLsbD_thetaC (A : Lanes) (x : Fin 5) (z : Fin 64) :
    (Ref.thetaC A x.val).getLsbD z.val = Spec.KeccakP.C (arr A) x z := by
  rw [thetaC_eq]
  simp only [BitVec.getLsbD_xor, Spec.KeccakP.C, arr, BitVec.ofNat_eq_ofNat, BitVec.getLsbD_zero, Bool.false_xor]

theorem getLsbD_thetaD (A : Lanes) (x : Fin 5) (z : Fin 64) :
    (Ref.thetaD A x.val).getLsbD z.val = Spec.KeccakP.D (arr A) x z := by
  have h1 : (x.val + 1) % 5 = (x + 1 : Fin 5).val := by fin_cases x <;> rfl
  have h4 : (x.val + 4) % 5 = (x - 1 : Fin 5).val := by fin_cases x <;> rfl
  rw [Ref.thetaD, h1, h4, BitVec.getLsbD_xor, getLsbD_rol64 _ _ (by omega), getLsbD_thetaC, getLsbD_thetaC,
    Spec.KeccakP.D, Bool.xor_comm]
  rfl

theorem arr_theta (A : Lanes) : arr (Ref.theta A) = Spec.KeccakP.theta (arr A) := by
  funext x y z
  simp only [arr, theta_lane, BitVec.getLsbD_xor, getLsbD_thetaD]
  rfl

theorem rho_lane (o : List Nat) (A : Lanes) : ∀ x y : Fin 5,
    Ref.rho o A (lane x y) = Ref.rol64 (A (lane x y)) (o.getD (lane x y).val 0) := by
  intro x y
  fin_cases x <;> fin_cases y <;> rfl

/-- what the walk of Algorithm 2 amounts to: lane `(x, y)` is rotated by a table entry -/
theorem rho_spec (S : StateArray) (x y : Fin 5) (z : Fin 64) : Spec.KeccakP.rho S x y z =
    S x y (z - Fin.ofNat 64 (Ref.rhoOffsets.getD (lane x y).val 0)) := by
  have h0 : z = z - 0 := by apply Fin.ext; simp only [Fin.sub_def, Fin.val_zero]; omega
  fin_cases x <;> fin_cases y <;> first | rfl | exact congrArg (S 0 0) h0

theorem rhoOffsets_lt : ∀ i : Fin 25, Ref.rhoOffsets.getD i.val 0 < 64 := by decide

theorem arr_rho (A : Lanes) : arr (Ref.rho Ref.rhoOffsets A) = Spec.KeccakP.rho (arr A) := by
  funext x y z
  rw [rho_spec]
  simp only [arr, rho_lane]
  rw [getLsbD_rol64 _ _ (rhoOffsets_lt _)]

theorem pi_lane (A : Lanes) : ∀ x y : Fin 5, Ref.pi A (lane x y) = A (lane (x + 3 * y) x) := by
  intro x y
  fin_cases x <;> fin_cases y <;> rfl

theorem arr_pi (A : Lanes) : arr (Ref.pi A) = Spec.KeccakP.pi (arr A) := by
  funext x y z
  simp only [arr, pi_lane, Spec.KeccakP.pi]

theorem chi_lane (A : Lanes) : ∀ x y : Fin 5, Ref.chi A (lane x y) =
    A (lane x y) ^^^ (~~~ A (lane (x + 1) y) &&& A (lane (x + 2) y)) := by
  intro x y
  fin_cases x <;> fin_cases y <;> rfl

theorem arr_chi (A : Lanes) : arr (Ref.chi A) = Spec.KeccakP.chi (arr A) := by
  funext x y z
  simp only [arr, chi_lane, Spec.KeccakP.chi, BitVec.getLsbD_xor, BitVec.getLsbD_and, BitVec.getLsbD_not, z.isLt,
    decide_true, Bool.true_and, Bool.xor_true]

theorem roundConstants_bits : ∀ i : Fin 24, ∀ z : Fin 64,
    (Ref.roundConstants.getD i.val 0).getLsbD z.val = Spec.KeccakP.RC i.val z := by decide +kernel

theorem arr_iota (A : Lanes) (i : Nat) (hi : i < 24) :
    arr (Ref.iota Ref.roundConstants A i) = Spec.KeccakP.iota (arr A) i := by
  funext x y z
  simp only [arr, Ref.iota, put, Spec.KeccakP.iota]
  have e : Ref.index 0 0 = lane 0 0 := rfl
  by_cases h : x = 0 ∧ y = 0
  · obtain ⟨rfl, rfl⟩ := h
    simp only [e, if_true, and_self, BitVec.getLsbD_xor]
    rw [roundConstants_bits ⟨i, hi⟩ z]
  · have : ¬ lane x y = Ref.index 0 0 := by
      intro h'
      apply h
      have := congrArg Fin.val h'
      simp only [lane, Ref.index] at this
      constructor <;> apply Fin.ext <;> simp <;> omega
    rw [if_neg this, if_neg h]

theorem arr_round (A : Lanes) (i : Nat) (hi : i < 24) :
    arr (Ref.round Ref.roundConstants Ref.rhoOffsets A i) = Spec.KeccakP.Rnd (arr A) i := by
  rw [Ref.round, arr_iota _ _ hi, arr_chi, arr_pi, arr_rho, arr_theta]
  rfl

theorem loopFrom_foldl {σ : Type} (f : Nat → σ → σ) (a n : Nat) (s : σ) :
    loopFrom f a n s = (List.range' a n).foldl (fun s i => f i s) s := by
  induction n generalizing a s with
  | zero => rfl
  | succ n ih => rw [loopFrom, ih, List.range'_succ, List.foldl_cons]

theorem foldl_arr (l : List Nat) (hl : ∀ i ∈ l, i < 24) (A : Lanes) :
    arr (l.foldl (fun A i => Ref.round Ref.roundConstants Ref.rhoOffsets A i) A)
      = l.foldl Spec.KeccakP.Rnd (arr A) := by
  induction l generalizing A with
  | nil => rfl
  | cons i l ih =>
    rw [List.foldl_cons, List.foldl_cons, ih (fun j hj => hl j (by simp [hj])), arr_round _ _ (hl i (by simp))]

theorem arr_onWords (A : Lanes) (nr : Nat) (hnr : nr ≤ 24) :
    arr (Ref.onWords Ref.roundConstants Ref.rhoOffsets A nr) = Spec.KeccakP.rounds nr (arr A) := by
  rw [Ref.onWords, loopFrom_foldl, foldl_arr]
  · rfl
  · intro i hi
    rw [List.mem_range'_1] at hi
    omega

/-! ## bytes, lanes and bits -/

theorem getLsbD_wordOfBytes (b : Bytes) (z : Fin 64) :
    (wordOfBytes b).getLsbD z.val = (b.getD (z.val / 8) 0).getLsbD (z.val % 8) := by
  have hz := z.isLt
  have hb : ∀ j, 8 ≤ j → ∀ v : Byte, v.getLsbD j = false := fun j hj v => BitVec.getLsbD_of_ge v j hj
  simp only [wordOfBytes, loopFrom, BitVec.getLsbD_or, BitVec.getLsbD_shiftLeft, BitVec.getLsbD_setWidth, hz,
    decide_true, Bool.true_and, BitVec.ofNat_eq_ofNat, BitVec.getLsbD_zero, Bool.false_or]
  generalize hq : z.val / 8 = q
  have hq8 : q < 8 := by omega
  have hr : z.val = 8 * q + z.val % 8 := by omega
  generalize z.val % 8 = r at *
  have hr8 : r < 8 := by omega
  rw [hr]
  clear hr hq hz
  have key : ∀ j : Nat, (!decide (8 * q + r < 8 * j) && (decide (8 * q + r - 8 * j < 64) &&
      (b.getD j 0#8).getLsbD (8 * q + r - 8 * j))) = (decide (j = q) && (b.getD q 0#8).getLsbD r) := by
    intro j
    rcases Nat.lt_trichotomy j q with h | h | h
    · have h1 : ¬ j = q := by omega
      rw [hb _ (by omega)]; simp [h1]
    · subst h
      have e1 : ¬ (8 * j + r < 8 * j) := by omega
      have e2 : 8 * j + r - 8 * j = r := by omega
      have e3 : r < 64 := by omega
      simp [e1, e2, e3]
    · have h1 : ¬ j = q := by omega
      have h2 : 8 * q + r < 8 * j := by omega
      simp [h1, h2]
  simp only [Nat.zero_add, Nat.reduceAdd, key]
  have : q = 0 ∨ q = 1 ∨ q = 2 ∨ q = 3 ∨ q = 4 ∨ q = 5 ∨ q = 6 ∨ q = 7 := by omega
  rcases this with h | h | h | h | h | h | h | h <;> subst h <;> simp

theorem length_bytesOfWord (w : Lane) : (bytesOfWord w).length = 8 := by simp [bytesOfWord]

theorem ofBytes_bytesOfWord (w : Lane) :
    Bits.ofBytes (bytesOfWord w) = (List.finRange 64).map fun z => w.getLsbD z.val := by
  have hbyte : ∀ j : Nat, j < 8 → ∀ k, k < 8 →
      (((w >>> (8 * j)) &&& 0xFF).setWidth 8).getLsbD k = w.getLsbD (8 * j + k) := by
    intro j hj k hk
    have hc : ∀ k : Fin 8, (0xFF : Lane).getLsbD k.val = true := by decide
    simp only [BitVec.getLsbD_setWidth, hk, decide_true, Bool.true_and, BitVec.getLsbD_and,
      BitVec.getLsbD_ushiftRight, hc ⟨k, hk⟩, Bool.and_true]
  have hb : ∀ j, j < 8 → Bits.ofByte (((w >>> (8 * j)) &&& 0xFF).setWidth 8)
      = (List.range 8).map fun k => w.getLsbD (8 * j + k) := by
    intro j hj
    unfold Bits.ofByte
    apply List.map_congr_left
    intro k hk
    exact hbyte j hj k (List.mem_range.1 hk)
  have h1 : Bits.ofBytes (bytesOfWord w)
      = (List.range 8).flatMap fun j => (List.range 8).map fun k => w.getLsbD (8 * j + k) := by
    unfold Bits.ofBytes bytesOfWord
    rw [List.flatMap_map]
    apply List.flatMap_congr
    intro j hj
    exact hb j (List.mem_range.1 hj)
  rw [h1]
  generalize w.getLsbD = g
  rfl

theorem length_bytesOfLanes (A : Lanes) : (bytesOfLanes A).length = 200 := by
  simp [bytesOfLanes, List.length_flatMap, length_bytesOfWord]

theorem ofBytes_flatMap {α : Type} (l : List α) (f : α → Bytes) :
    Bits.ofBytes (l.flatMap f) = l.flatMap fun a => Bits.ofBytes (f a) := by
  simp [Bits.ofBytes, List.flatMap_assoc]

theorem finRange25 : List.finRange 25
    = (List.finRange 5).flatMap fun y => (List.finRange 5).map fun x => lane x y := by decide

theorem ofBytes_bytesOfLanes (A : Lanes) : Bits.ofBytes (bytesOfLanes A) = Spec.KeccakP.toString (arr A) := by
  rw [bytesOfLanes, ofBytes_flatMap, finRange25, List.flatMap_assoc, Spec.KeccakP.toString]
  apply List.flatMap_congr
  intro y _
  rw [List.flatMap_map]
  apply List.flatMap_congr
  intro x _
  rw [ofBytes_bytesOfWord]
  rfl

theorem getElem?_ofBytes (s : Bytes) (i : Nat) :
    (Bits.ofBytes s)[i]? = (s[i / 8]?).map fun b => b.getLsbD (i % 8) := by
  induction s generalizing i with
  | nil => simp
  | cons b s ih =>
    rw [Bits.ofBytes_cons]
    by_cases h : i < 8
    · rw [List.getElem?_append_left (by simpa using h)]
      have e : i / 8 = 0 := by omega
      have e2 : i % 8 = i := by omega
      simp [e, e2, Bits.ofByte, h]
    · rw [List.getElem?_append_right (by simp; omega), ih]
      simp only [Bits.length_ofByte]
      have e : i / 8 = (i - 8) / 8 + 1 := by omega
      have e2 : (i - 8) % 8 = i % 8 := by omega
      rw [e, List.getElem?_cons_succ, e2]

theorem arr_lanesOfBytes (s : Bytes) : arr (lanesOfBytes s) = Spec.KeccakP.toArray (Bits.ofBytes s) := by
  funext x y z
  simp only [arr, lanesOfBytes, getLsbD_wordOfBytes, Spec.KeccakP.toArray, List.getD_eq_getElem?_getD,
    getElem?_ofBytes, List.getElem?_drop]
  have e1 : (lane x y).val * 8 + z.val / 8 = (64 * (5 * y.val + x.val) + z.val) / 8 := by
    simp only [lane]; omega
  have e2 : (64 * (5 * y.val + x.val) + z.val) % 8 = z.val % 8 := by omega
  rw [e1, e2]
  cases s[(64 * (5 * y.val + x.val) + z.val) / 8]? <;> simp

theorem getElem?_flatMap_const {α β : Type} (l : List α) (f : α → List β) (k : Nat)
    (hk : ∀ a, (f a).length = k) (i j : Nat) (hj : j < k) :
    (l.flatMap f)[i * k + j]? = (l[i]?).bind fun a => (f a)[j]? := by
  induction l generalizing i with
  | nil => simp
  | cons a l ih =>
    rw [List.flatMap_cons]
    cases i with
    | zero => rw [List.getElem?_append_left (by rw [hk]; omega)]; simp
    | succ i =>
      have e : (i + 1) * k + j = i * k + j + k := by rw [Nat.add_mul]; omega
      rw [List.getElem?_append_right (by rw [hk, e]; omega), hk, e, Nat.add_sub_cancel, ih]
      simp

theorem toArray_toString (S : StateArray) : Spec.KeccakP.toArray (Spec.KeccakP.toString S) = S := by
  funext x y z
  have hl : ∀ j : Fin 5, ((List.finRange 5).flatMap fun i => (List.finRange 64).map (S i j)).length = 320 := by
    intro j; simp [List.length_flatMap]
  have e : 64 * (5 * y.val + x.val) + z.val = y.val * 320 + (x.val * 64 + z.val) := by omega
  rw [Spec.KeccakP.toArray, List.getD_eq_getElem?_getD, Spec.KeccakP.toString, e,
    getElem?_flatMap_const _ _ 320 hl _ _ (by omega)]
  simp only [List.getElem?_eq_getElem (show y.val < (List.finRange 5).length by simp), List.getElem_finRange,
    Option.bind_some]
  rw [getElem?_flatMap_const _ _ 64 (by simp) _ _ (by omega)]
  simp

theorem length_toString (S : StateArray) : (Spec.KeccakP.toString S).length = 1600 := by
  simp [Spec.KeccakP.toString, List.length_flatMap]

theorem lanesOfBytes_bytesOfLanes (A : Lanes) : lanesOfBytes (bytesOfLanes A) = A := by
  apply arr_injective
  rw [arr_lanesOfBytes, ofBytes_bytesOfLanes, toArray_toString]

theorem toString_toArray (S : Bits) (hS : S.length = 1600) :
    Spec.KeccakP.toString (Spec.KeccakP.toArray S) = S := by
  apply List.ext_getElem
  · rw [length_toString, hS]
  · intro i h1 h2
    rw [length_toString] at h1
    have := congrFun (congrFun (congrFun (toArray_toString (Spec.KeccakP.toArray S)) ⟨i / 64 % 5, by omega⟩)
      ⟨i / 320, by omega⟩) ⟨i % 64, by omega⟩
    have e : 64 * (5 * (i / 320) + i / 64 % 5) + i % 64 = i := by omega
    simp only [Spec.KeccakP.toArray, e] at this
    simp only [List.getD_eq_getElem?_getD, List.getElem?_eq_getElem h2, Option.getD_some] at this
    rw [List.getElem?_eq_getElem (by rw [length_toString]; exact h1)] at this
    exact this

theorem bytesOfLanes_lanesOfBytes (s : Bytes) (hs : s.length = 200) : bytesOfLanes (lanesOfBytes s) = s := by
  apply Bits.ofBytes_injective
  rw [ofBytes_bytesOfLanes, arr_lanesOfBytes, toString_toArray]
  rw [Bits.length_ofBytes, hs]

end KeccakP1600
