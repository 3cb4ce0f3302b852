import Verif.Model.PyFIPS202
import Verif.Proofs.K12Rust

/-!
The permutations of the standalone Python implementations are the one of the reference implementation.
-/

namespace Py202

open KeccakP1600 (Lane Lanes loopFrom loopM bytesOfLanes lanesOfBytes bytesOfWord byteOf)
open Compact202 (Five i5 ix ix_val bind_ok loopM_map loopM_rel loopM_inv)
open K12Rust (mapUpTo mapUpTo_ok getElem?_range_map ix_fin)

/-! ## Integers -/

/-- A lane as an integer. -/
def e (a : Lane) : Int := (a.toNat : Int)

theorem xor_nat (m n : Nat) : Int.xor (m : Int) (n : Int) = ((m ^^^ n : Nat) : Int) := rfl

theorem land_nat (m n : Nat) : Int.land (m : Int) (n : Int) = ((m &&& n : Nat) : Int) := rfl

theorem xor_e (a b : Lane) : Int.xor (e a) (e b) = e (a ^^^ b) := by
  rw [e, e, xor_nat, e, BitVec.toNat_xor]

theorem andnot_e (b c : Lane) : ((e b).lnot).land (e c) = e (~~~ b &&& c) := by
  have h : ((e b).lnot).land (e c) = ((Nat.ldiff c.toNat b.toNat : Nat) : Int) := rfl
  rw [h, e]
  congr 1
  apply Nat.eq_of_testBit_eq
  intro i
  rw [Nat.testBit_ldiff, ← BitVec.getLsbD, ← BitVec.getLsbD, ← BitVec.getLsbD, BitVec.getLsbD_and, BitVec.getLsbD_not]
  by_cases hi : i < 64
  · simp [hi, Bool.and_comm]
  · simp [hi, BitVec.getLsbD_of_ge c i (by omega)]

theorem shl_one (j : Nat) (hj : j < 64) : shl 1 j = e ((1 : Lane) <<< j) := by
  rw [shl, e, BitVec.toNat_shiftLeft, Int.one_mul]
  have : (2 : Nat) ^ j < 2 ^ 64 := Nat.pow_lt_pow_right (by decide) hj
  rw [show (1 : Lane).toNat = 1 from rfl, Nat.shiftLeft_eq, Nat.one_mul, Nat.mod_eq_of_lt this]
  simp

theorem rol_e (a : Lane) (n : Nat) (h0 : 0 < n % 64) : Plain.rol64 (e a) n = e (KeccakP1600.Ref.rol64 a (n % 64)) := by
  have hlt : n % 64 < 64 := Nat.mod_lt _ (by decide)
  obtain ⟨r, hr⟩ : ∃ r, n % 64 = r := ⟨_, rfl⟩
  rw [hr] at h0 hlt
  have h1 : a <<< r ^^^ a >>> (64 - r) = a <<< r + a >>> (64 - r) := by
    have hz : a <<< r &&& a >>> (64 - r) = 0#64 := by
      ext i hi
      simp only [BitVec.getElem_and, BitVec.getElem_shiftLeft, BitVec.getElem_ushiftRight, BitVec.getElem_zero]
      by_cases h : i < r
      · simp [h]
      · simp [BitVec.getLsbD_of_ge a (64 - r + i) (by omega)]
    rw [BitVec.add_eq_or_of_and_eq_zero _ _ hz]
    ext i hi
    have := congrArg (fun v : Lane => v[i]) hz
    simp only [BitVec.getElem_and, BitVec.getElem_zero] at this
    simp only [BitVec.getElem_xor, BitVec.getElem_or]
    revert this
    cases (a <<< r)[i] <;> cases (a >>> (64 - r))[i] <;> simp
  rw [Plain.rol64, hr, KeccakP1600.Ref.rol64, if_pos (by omega), h1]
  unfold e shr shl
  rw [BitVec.toNat_add, BitVec.toNat_shiftLeft, BitVec.toNat_ushiftRight, Nat.shiftLeft_eq, Nat.shiftRight_eq_div_pow, Nat.mod_add_mod,
    Int.one_mul]
  push_cast
  rw [Int.add_comm]

/-! ## The permutation of CompactFIPS202.py -/

namespace Plain

/-- The lists of lanes. -/
def E (A : Lanes) : PyLanes := (List.range 5).map fun x => (List.range 5).map fun y => e (A (ix (x + 5 * y)))

theorem E_ext {A B : Lanes} (h : ∀ x y, x < 5 → y < 5 → A (ix (x + 5 * y)) = B (ix (x + 5 * y))) : E A = E B := by
  unfold E
  apply List.map_congr_left
  intro x hx
  apply List.map_congr_left
  intro y hy
  rw [h x y (List.mem_range.1 hx) (List.mem_range.1 hy)]

theorem row_E (A : Lanes) {x : Nat} (hx : x < 5) : (E A)[x]? = some ((List.range 5).map fun y => e (A (ix (x + 5 * y)))) :=
  getElem?_range_map _ hx

theorem get_E (A : Lanes) {x y : Nat} (hx : x < 5) (hy : y < 5) : get (E A) x y = some (e (A (ix (x + 5 * y)))) := by
  rw [get, row_E A hx, Option.bind_some, getElem?_range_map _ hy]

theorem set_range_map {α : Type} (g : Nat → α) (n i : Nat) (v : α) :
    ((List.range n).map g).set i v = (List.range n).map fun j => if j = i then v else g j := by
  apply List.ext_getElem?; intro j
  rw [List.getElem?_set, List.getElem?_map, List.getElem?_map, List.length_map, List.length_range]
  by_cases hj : j < n
  · rw [List.getElem?_range hj]
    by_cases h : i = j
    · subst h; simp [hj]
    · have : ¬ j = i := fun h' => h h'.symm
      simp [h, this]
  · rw [List.getElem?_eq_none (by rw [List.length_range]; omega)]
    by_cases h : i = j
    · subst h; simp [hj]
    · simp [h]

theorem put_E (A : Lanes) {x y : Nat} (hx : x < 5) (hy : y < 5) (v : Lane) :
    put (E A) x y (e v) = some (E (KeccakP1600.put A (ix (x + 5 * y)) v)) := by
  rw [put, row_E A hx, Option.bind_some, if_pos (by simpa using hy)]
  congr 1
  rw [E, set_range_map, set_range_map, E]
  apply List.map_congr_left
  intro x' hx'
  rw [List.mem_range] at hx'
  by_cases h : x' = x
  · rw [if_pos h, h]
    apply List.map_congr_left
    intro y' hy'
    rw [List.mem_range] at hy'
    by_cases h2 : y' = y
    · rw [if_pos h2, h2, KeccakP1600.put, if_pos rfl]
    · rw [if_neg h2, KeccakP1600.put, if_neg]
      intro h3
      apply h2
      have := congrArg Fin.val h3
      rw [ix_val (by omega), ix_val (by omega)] at this
      omega
  · rw [if_neg h]
    apply List.map_congr_left
    intro y' hy'
    rw [List.mem_range] at hy'
    rw [KeccakP1600.put, if_neg]
    intro h3
    apply h
    have := congrArg Fin.val h3
    rw [ix_val (by omega), ix_val (by omega)] at this
    omega

/-- Five lanes. -/
def E5 (C : Five) : List Int := (List.range 5).map fun x => e (C (i5 x))

theorem get_E5 (C : Five) {x : Nat} (hx : x < 5) : (E5 C)[x]? = some (e (C (i5 x))) := getElem?_range_map _ hx

theorem pure_thetaC (A : Lanes) {x : Nat} (hx : x < 5) : Compact202.Pure.thetaC A (i5 x) =
    A (ix (x + 5 * 0)) ^^^ A (ix (x + 5 * 1)) ^^^ A (ix (x + 5 * 2)) ^^^ A (ix (x + 5 * 3)) ^^^ A (ix (x + 5 * 4)) := by
  have h : ∀ x : Fin 5, Compact202.Pure.thetaC A (i5 x.val) = A (ix (x.val + 5 * 0)) ^^^ A (ix (x.val + 5 * 1)) ^^^
      A (ix (x.val + 5 * 2)) ^^^ A (ix (x.val + 5 * 3)) ^^^ A (ix (x.val + 5 * 4)) := by
    intro x; fin_cases x <;> rfl
  exact h ⟨x, hx⟩

theorem pure_thetaAdd (C : Five) (A : Lanes) {x y : Nat} (hx : x < 5) (hy : y < 5) :
    Compact202.Pure.thetaAdd C A (ix (x + 5 * y)) =
    A (ix (x + 5 * y)) ^^^ (C (i5 ((x + 4) % 5)) ^^^ KeccakP1600.Ref.rol64 (C (i5 ((x + 1) % 5))) 1) := by
  have h : ∀ x y : Fin 5, Compact202.Pure.thetaAdd C A (ix (x.val + 5 * y.val)) =
      A (ix (x.val + 5 * y.val)) ^^^ (C (i5 ((x.val + 4) % 5)) ^^^ KeccakP1600.Ref.rol64 (C (i5 ((x.val + 1) % 5))) 1) := by
    intro x y; fin_cases x <;> fin_cases y <;> rfl
  exact h ⟨x, hx⟩ ⟨y, hy⟩

theorem thetaC_eq (A : Lanes) : thetaC (E A) = some (E5 (Compact202.Pure.thetaC A)) := by
  apply mapUpTo_ok
  intro x hx
  refine bind_ok (get_E A hx (by decide)) (bind_ok (get_E A hx (by decide)) (bind_ok (get_E A hx (by decide))
    (bind_ok (get_E A hx (by decide)) (bind_ok (get_E A hx (by decide)) ?_))))
  rw [xor_e, xor_e, xor_e, xor_e, pure_thetaC A hx]

/-- `D`. -/
def D (C : Five) : Five := fun x => C (i5 ((x.val + 4) % 5)) ^^^ KeccakP1600.Ref.rol64 (C (i5 ((x.val + 1) % 5))) 1

theorem D_i5 (C : Five) {x : Nat} (hx : x < 5) :
    D C (i5 x) = C (i5 ((x + 4) % 5)) ^^^ KeccakP1600.Ref.rol64 (C (i5 ((x + 1) % 5))) 1 := by
  rw [D, show (i5 x).val = x from Nat.mod_eq_of_lt hx]

theorem thetaD_eq (C : Five) : thetaD (E5 C) = some (E5 (D C)) := by
  apply mapUpTo_ok
  intro x hx
  refine bind_ok (get_E5 C (Nat.mod_lt _ (by decide))) (bind_ok (get_E5 C (Nat.mod_lt _ (by decide))) ?_)
  rw [rol_e _ 1 (by decide), xor_e, D_i5 C hx]

theorem thetaAdd_eq (C : Five) (A : Lanes) : thetaAdd (E A) (E5 (D C)) = some (E (Compact202.Pure.thetaAdd C A)) := by
  apply mapUpTo_ok
  intro x hx
  apply mapUpTo_ok
  intro y hy
  refine bind_ok (get_E A hx hy) (bind_ok (get_E5 _ hx) ?_)
  rw [xor_e, D_i5 C hx, pure_thetaAdd C A hx hy]

theorem rhoPi_eq (A : Lanes) : rhoPi (E A) = some (E (Compact202.Pure.rhoPi A)) := by
  obtain ⟨w, h, h1, -⟩ := loopM_rel rhoPiStep Compact202.Pure.step
    (fun _ w v => w.lanes = E v.s ∧ w.x = v.x ∧ w.y = v.y ∧ w.current = e v.cur ∧ v.x < 5 ∧ v.y < 5) 24 0
    ⟨E A, 1, 0, e (A (ix 1))⟩ ⟨A, 1, 0, 0, A (ix 1)⟩
    ⟨rfl, rfl, rfl, rfl, Nat.lt_of_sub_eq_succ rfl, Nat.lt_of_sub_eq_succ rfl⟩ (by
      rintro t ⟨s, x, y, c⟩ ⟨B, x', y', r', c'⟩ h1 h2 ⟨h3, h4, h5, h6, h7, h8⟩
      simp only at h3 h4 h5 h6 h7 h8
      subst h3 h4 h5 h6
      have hY : (2 * x + 3 * y) % 5 < 5 := Nat.mod_lt _ (by decide)
      have hr := Compact202.rot_ok ⟨t, by omega⟩
      simp only at hr
      refine ⟨⟨E (Compact202.Pure.step t ⟨B, x, y, r', c'⟩).s, y, (2 * x + 3 * y) % 5,
        e (B (ix (y + 5 * ((2 * x + 3 * y) % 5))))⟩, ?_, rfl, rfl, rfl, rfl, h8, hY⟩
      unfold rhoPiStep
      simp only
      rw [rol_e _ _ hr]
      exact bind_ok (get_E B h8 hY) (bind_ok (put_E B h8 hY _) rfl))
  unfold rhoPi
  refine bind_ok (get_E A (by decide) (by decide)) (bind_ok h ?_)
  rw [h1]
  rfl

theorem pure_chiCopy (A : Lanes) (y : Nat) {x : Nat} (hx : x < 5) : Compact202.Pure.chiCopy A y (i5 x) = A (ix (x + 5 * y)) := by
  have h : ∀ x : Fin 5, Compact202.Pure.chiCopy A y (i5 x.val) = A (ix (x.val + 5 * y)) := by
    intro x; fin_cases x <;> rfl
  exact h ⟨x, hx⟩

theorem chi_eq (A : Lanes) : chi (E A) = some (E (Compact202.Pure.chi A)) := by
  apply loopM_map E
  intro y A h1 h2
  have hT : chiT (E A) y = some (E5 (Compact202.Pure.chiCopy A y)) := by
    apply mapUpTo_ok
    intro x hx
    rw [get_E A hx (by omega), pure_chiCopy A y hx]
  rw [hT, Option.bind_some]
  apply loopM_map E
  intro x B h3 h4
  refine bind_ok (get_E5 _ (by omega)) (bind_ok (get_E5 _ (Nat.mod_lt _ (by decide))) (bind_ok (get_E5 _ (Nat.mod_lt _ (by decide))) ?_))
  rw [andnot_e, xor_e, put_E B (by omega) (by omega)]

theorem lfsr_nat : ∀ R : Byte, ((R.toNat * 2) ^^^ (R.toNat / 128 * 113)) % 256 = (KeccakP1600.Ref.lfsr86540 R).2.toNat ∧
    (((R.toNat * 2) ^^^ (R.toNat / 128 * 113)) % 256 &&& 2 ≠ 0 ↔ (KeccakP1600.Ref.lfsr86540 R).1 = true) := by decide +kernel

theorem lfsr_eq (R : Byte) : lfsr (R.toNat : Int) = ((KeccakP1600.Ref.lfsr86540 R).2.toNat : Int) ∧
    (Int.land (lfsr (R.toNat : Int)) 2 ≠ 0 ↔ (KeccakP1600.Ref.lfsr86540 R).1 = true) := by
  obtain ⟨h1, h2⟩ := lfsr_nat R
  have h : lfsr (R.toNat : Int) = ((((R.toNat * 2) ^^^ (R.toNat / 128 * 113)) % 256 : Nat) : Int) := by
    have e1 : shl (R.toNat : Int) 1 = ((R.toNat * 2 : Nat) : Int) := rfl
    have e2 : shr (R.toNat : Int) 7 * 0x71 = ((R.toNat / 128 * 113 : Nat) : Int) := rfl
    rw [lfsr, e1, e2, xor_nat]; rfl
  refine ⟨by rw [h, h1], ?_⟩
  rw [← h2, h, show (2 : Int) = ((2 : Nat) : Int) from rfl, land_nat, ne_eq, ne_eq, Int.natCast_eq_zero]

theorem iota_eq (A : Lanes) (L : Byte) : iota (E A, (L.toNat : Int)) =
    some ((fun st : Lanes × Byte => (E st.1, (st.2.toNat : Int))) (Compact202.Pure.iota (A, L))) := by
  apply loopM_map (fun st : Lanes × Byte => (E st.1, (st.2.toNat : Int))) _ _ 7 0 (A, L)
  rintro j ⟨A, L⟩ h1 h2
  obtain ⟨e1, e2⟩ := lfsr_eq L
  simp only
  by_cases h : (KeccakP1600.Ref.lfsr86540 L).1 = true
  · have hj : 2 ^ j - 1 < 64 := by
      have : 2 ^ j ≤ 2 ^ 6 := Nat.pow_le_pow_right (by decide) (by omega)
      omega
    rw [if_pos (e2.2 h), if_pos h, e1]
    refine bind_ok (get_E A (by decide) (by decide)) ?_
    rw [shl_one _ hj, xor_e]
    exact bind_ok (put_E A (by decide) (by decide) _) rfl
  · rw [if_neg (fun h' => h (e2.1 h')), if_neg h, e1]

theorem round_eq (st : Lanes × Byte) : round (E st.1, (st.2.toNat : Int)) =
    some ((fun st : Lanes × Byte => (E st.1, (st.2.toNat : Int))) (Compact202.Pure.round st)) := by
  unfold round
  exact bind_ok (thetaC_eq _) (bind_ok (thetaD_eq _) (bind_ok (thetaAdd_eq _ _) (bind_ok (rhoPi_eq _) (bind_ok (chi_eq _)
    (iota_eq _ _)))))

theorem onLanes_eq (A : Lanes) : onLanes (E A) =
    some (E (KeccakP1600.Ref.onWords KeccakP1600.Ref.roundConstants KeccakP1600.Ref.rhoOffsets A 24)) := by
  have h := loopM_map (fun st : Lanes × Byte => (E st.1, (st.2.toNat : Int))) (fun _ st => round st)
    (fun _ st => Compact202.Pure.round st) 24 0 (A, 0x01) (fun i st _ _ => round_eq st)
  rw [onLanes]
  have e : ((1 : Int)) = ((0x01 : Byte).toNat : Int) := rfl
  rw [e, h, Option.map_some]
  simp only
  rw [Compact202.Pure.all_eq]

theorem load64_eq (b : Bytes) (w : Lane) (h : ∀ k < 8, b[k]? = some (byteOf w k)) : load64 b = some (e w) := by
  obtain ⟨a, h1, h2⟩ := loopM_inv (fun i (a : Int) => (b[i]?).map fun v => a + shl v.toNat (8 * i))
    (fun i a => a = ((w.toNat % 2 ^ (8 * i) : Nat) : Int)) 8 0 0 (by simp [Nat.mod_one]) (by
      intro i a h1 h2 h3
      subst h3
      refine ⟨_, by rw [h i (by omega)]; rfl, ?_⟩
      have e1 : (byteOf w i).toNat = w.toNat / 2 ^ (8 * i) % 2 ^ 8 := by
        rw [byteOf, BitVec.toNat_setWidth, BitVec.toNat_ushiftRight, Nat.shiftRight_eq_div_pow]
      show _ + shl ((byteOf w i).toNat : Int) (8 * i) = _
      rw [show 8 * (i + 1) = 8 * i + 8 by omega, Nat.pow_add, Nat.mod_mul, e1, shl]
      push_cast
      rw [Int.mul_comm])
  rw [load64, h1, h2, e]
  have : w.toNat % 2 ^ (8 * (0 + 8)) = w.toNat := Nat.mod_eq_of_lt w.isLt
  rw [this]

theorem load_eq (s : Bytes) (hs : s.length = 200) : load s = some (E (lanesOfBytes s)) := by
  apply mapUpTo_ok
  intro x hx
  apply mapUpTo_ok
  intro y hy
  apply load64_eq
  intro k hk
  have hl : 8 * (x + 5 * y) + k < s.length := by omega
  rw [Bytes.getElem?_slice, if_pos hk, lanesOfBytes, KeccakP1600.byteOf_wordOfBytes _ _ hk, ix_val (by omega),
    List.getD_eq_getElem?_getD, List.getElem?_drop, Nat.mul_comm _ 8, List.getElem?_eq_getElem hl, Option.getD_some]

theorem store64_eq (a : Lane) : (∀ v ∈ store64 (e a), 0 ≤ v ∧ v < 256) ∧ (store64 (e a)).map (BitVec.ofInt 8) = bytesOfWord a := by
  constructor
  · intro v hv
    obtain ⟨i, -, rfl⟩ := List.mem_map.1 hv
    omega
  · rw [store64, bytesOfWord, List.map_map]
    apply List.map_congr_left
    intro j _
    apply BitVec.eq_of_toNat_eq
    have h : shr (e a) (8 * j) % 256 = ((a.toNat / 2 ^ (8 * j) % 256 : Nat) : Int) := by
      rw [shr, e]; push_cast; rfl
    rw [Function.comp, h, BitVec.ofInt_natCast, BitVec.toNat_ofNat, BitVec.toNat_setWidth, BitVec.toNat_and,
      BitVec.toNat_ushiftRight, Nat.shiftRight_eq_div_pow]
    show _ = (_ &&& (2 ^ 8 - 1)) % _
    rw [Nat.and_two_pow_sub_one_eq_mod]

theorem splice_eq (s l : Bytes) (p : Nat) (h : p + l.length ≤ s.length) :
    s.take p ++ l ++ s.drop (p + l.length) = Bytes.setAt s p l := by
  apply List.ext_getElem?; intro i
  rw [Bytes.getElem?_setAt, List.append_assoc]
  rcases Nat.lt_or_ge i p with h1 | h1
  · rw [List.getElem?_append_left (by rw [List.length_take]; omega), List.getElem?_take, if_pos h1]
    simp [show i < s.length by omega, show ¬ p ≤ i by omega]
  · rw [List.getElem?_append_right (by rw [List.length_take]; omega), List.length_take, Nat.min_eq_left (by omega)]
    rcases Nat.lt_or_ge i (p + l.length) with h2 | h2
    · rw [List.getElem?_append_left (by omega)]
      simp [show i < s.length by omega, h1, h2, show i - p < l.length by omega]
    · rw [List.getElem?_append_right (by omega), List.getElem?_drop,
        show p + l.length + (i - p - l.length) = i by omega]
      by_cases h3 : i < s.length
      · simp [h3, show ¬ i < p + l.length by omega, show ¬ i - p < l.length by omega]
      · simp [h3]

theorem putSlice_eq (s : Bytes) (p : Nat) (a : Lane) (h : p + 8 ≤ s.length) :
    putSlice s p 8 (store64 (e a)) = some (Bytes.setAt s p (bytesOfWord a)) := by
  obtain ⟨h1, h2⟩ := store64_eq a
  rw [putSlice, if_pos h1, h2]
  congr 1
  exact splice_eq s (bytesOfWord a) p h

theorem store_eq (A : Lanes) : store (E A) = some (bytesOfLanes A) := by
  have h := loopM_map bytesOfLanes
    (fun x s => loopM (fun y s => (get (E A) x y).bind fun a => putSlice s (8 * (x + 5 * y)) 8 (store64 a)) 0 5 s)
    (fun x B => loopFrom (fun y B => KeccakP1600.put B (ix (x + y * 5)) (A (ix (x + y * 5)))) 0 5 B) 5 0 (fun _ => 0) (by
      intro x B h1 h2
      apply loopM_map bytesOfLanes
      intro y B h3 h4
      rw [get_E A (by omega) (by omega), Option.bind_some, putSlice_eq _ _ _ (by rw [KeccakP1600.length_bytesOfLanes]; omega),
        KeccakP1600.bytesOfLanes_put, ix_val (by omega), Nat.mul_comm 8, Nat.mul_comm 5])
  have hz : bytesOfLanes (fun _ => 0) = List.replicate 200 0 := Compact202.Tweet.bytes_zero
  have he : (fun i : Fin 25 => A (ix i.val)) = A := by
    funext i
    rw [ix_fin]
  rw [hz, K12Rust.putAll (fun i => A (ix i)), he] at h
  exact h

theorem permute_eq (s : Bytes) (hs : s.length = 200) : permute s = some (KeccakP1600.Ref.permuteNrounds 24 s) :=
  bind_ok (load_eq s hs) (bind_ok (onLanes_eq _) (store_eq _))

end Plain

/-! ## The permutation of CompactFIPS202_numpy.py -/

namespace Numpy

open KeccakP1600 (lane)

/-- The array of the lanes. -/
def arr (A : Lanes) : Arr := fun x y => A (lane x y)

theorem rol_or (a : Lane) (o : Nat) (ho : o < 64) : (a <<< o) ||| (a >>> (64 - o)) = KeccakP1600.Ref.rol64 a o := by
  unfold KeccakP1600.Ref.rol64
  split
  · ext i hi
    simp only [BitVec.getElem_xor, BitVec.getElem_or, BitVec.getElem_shiftLeft, BitVec.getElem_ushiftRight]
    by_cases h : i < o
    · simp [h]
    · simp [BitVec.getLsbD_of_ge a (64 - o + i) (by omega)]
  · rename_i h
    have : o = 0 := by omega
    subst this
    have e : a >>> (64 - 0) = 0 := BitVec.ushiftRight_eq_zero (Nat.le_refl 64)
    rw [e]
    simp

theorem rol_xor (a b : Lane) (o : Nat) (ho : o < 64) :
    KeccakP1600.Ref.rol64 (a ^^^ b) o = KeccakP1600.Ref.rol64 a o ^^^ KeccakP1600.Ref.rol64 b o := by
  apply BitVec.eq_of_getLsbD_eq
  intro i hi
  rw [BitVec.getLsbD_xor, KeccakP1600.getLsbD_rol64 _ _ ho ⟨i, hi⟩, KeccakP1600.getLsbD_rol64 _ _ ho ⟨i, hi⟩,
    KeccakP1600.getLsbD_rol64 _ _ ho ⟨i, hi⟩, BitVec.getLsbD_xor]

theorem theta_eq (A : Lanes) : theta (arr A) = arr (KeccakP1600.Ref.theta A) := by
  funext x y
  have h0 : ∀ x : Fin 5, (thetaReorder0 x).val = (x.val + 4) % 5 := by decide
  have h1 : ∀ x : Fin 5, (thetaReorder1 x).val = (x.val + 1) % 5 := by decide
  simp only [theta, arr, KeccakP1600.theta_lane, KeccakP1600.Ref.thetaD]
  rw [← h0, ← h1, KeccakP1600.thetaC_eq, KeccakP1600.thetaC_eq]
  have hr := fun a => rol_or a 1 (by decide)
  simp only [reduce, show (63 : Nat) = 64 - 1 from rfl, hr, BitVec.ofNat_eq_ofNat, BitVec.zero_xor]
  rw [rol_xor _ _ _ (by decide), rol_xor _ _ _ (by decide), rol_xor _ _ _ (by decide), rol_xor _ _ _ (by decide)]
  congr 1
  rw [BitVec.xor_comm]
  rfl

theorem shifts_eq : ∀ x y : Fin 5, rhoShifts x y = KeccakP1600.Ref.rhoOffsets.getD (lane x y).val 0 := by decide

theorem rho_eq (A : Lanes) : rho (arr A) = arr (KeccakP1600.Ref.rho KeccakP1600.Ref.rhoOffsets A) := by
  funext x y
  simp only [rho, arr, KeccakP1600.rho_lane, shifts_eq]
  rw [rol_or _ _ (KeccakP1600.rhoOffsets_lt _)]

theorem pi_eq (A : Lanes) : pi (arr A) = arr (KeccakP1600.Ref.pi A) := by
  funext x y
  have h0 : ∀ x y : Fin 5, piRow x y = x + 3 * y := by decide
  have h1 : ∀ x y : Fin 5, piColumn x y = x := by decide
  simp only [pi, arr, KeccakP1600.pi_lane, h0, h1]

theorem chi_eq (A : Lanes) : chi (arr A) = arr (KeccakP1600.Ref.chi A) := by
  funext x y
  have h0 : ∀ x : Fin 5, chiReorder0 x = x + 1 := by decide
  have h1 : ∀ x : Fin 5, chiReorder1 x = x + 2 := by decide
  simp only [chi, arr, KeccakP1600.chi_lane, h0, h1]

theorem constants_eq : iotaConstants = KeccakP1600.Ref.roundConstants := by decide

theorem iota_eq (A : Lanes) (i : Nat) (hi : i < 24) :
    iota (arr A) i = some (arr (KeccakP1600.Ref.iota KeccakP1600.Ref.roundConstants A i)) := by
  have hl : i < KeccakP1600.Ref.roundConstants.length := hi
  rw [iota, constants_eq, List.getElem?_eq_getElem hl, Option.map_some]
  congr 1
  funext x y
  simp only [arr, KeccakP1600.Ref.iota, KeccakP1600.put]
  have e : ∀ x y : Fin 5, lane x y = KeccakP1600.Ref.index 0 0 ↔ x = 0 ∧ y = 0 := by decide
  rw [List.getD_eq_getElem?_getD, List.getElem?_eq_getElem hl]
  simp only [e]
  rfl

theorem onWords_eq (A : Lanes) : loopM (fun i a => iota (chi (pi (rho (theta a)))) i) 0 24 (arr A) =
    some (arr (KeccakP1600.Ref.onWords KeccakP1600.Ref.roundConstants KeccakP1600.Ref.rhoOffsets A 24)) := by
  apply loopM_map arr
  intro i A h1 h2
  rw [theta_eq, rho_eq, pi_eq, chi_eq, iota_eq _ _ (by omega)]
  rfl

theorem frombuffer_eq (s : Bytes) (hs : s.length = 200) : frombuffer s = some (arr (lanesOfBytes s)) := by
  rw [frombuffer, if_neg (by omega)]
  congr 1
  funext x y
  rw [arr, lanesOfBytes, Nat.mul_comm 8]
  exact K12Rust.word_slice s _

theorem tobytes_eq (A : Lanes) : tobytes (arr A) = bytesOfLanes A := by
  have h : List.range 25 = (List.finRange 25).map Fin.val := by decide
  rw [tobytes, h, List.flatMap_map, bytesOfLanes]
  congr 1
  funext i
  rw [arr]
  congr 2
  have e : ∀ i : Fin 25, lane (Fin.ofNat 5 (i.val % 5)) (Fin.ofNat 5 (i.val / 5)) = i := by decide
  exact e i

theorem permute_eq (s : Bytes) (hs : s.length = 200) : permute s = some (KeccakP1600.Ref.permuteNrounds 24 s) :=
  bind_ok (frombuffer_eq s hs) (bind_ok (onWords_eq _) (by rw [tobytes_eq]; rfl))

end Numpy

end Py202
