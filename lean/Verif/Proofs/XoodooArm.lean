import Verif.Model.XoodooArm
import Verif.Proofs.XoodooSimdRounds

/-!
# The rounds of the ARM assembly of Xoodoo
-/

namespace XoodooArm

open Xoodoo (Lane Lanes rotl32)

/-! ### Rotations -/

theorem getLsbD_rol (a : Lane) (n i : Nat) (hi : i < 32) :
    (a.rotateLeft n).getLsbD i = a.getLsbD ((i + 32 - n % 32) % 32) := by
  rw [BitVec.getLsbD_rotateLeft]
  by_cases h : i < n % 32
  · have e : (i + 32 - n % 32) % 32 = 32 - n % 32 + i := by omega
    simp [h, e]
  · have e : (i + 32 - n % 32) % 32 = i - n % 32 := by omega
    simp [h, e, hi]

theorem rol_xor (a b : Lane) (n : Nat) : (a ^^^ b).rotateLeft n = a.rotateLeft n ^^^ b.rotateLeft n := by
  apply BitVec.eq_of_getLsbD_eq
  intro i hi
  simp only [getLsbD_rol _ _ _ hi, BitVec.getLsbD_xor]

theorem rol_and (a b : Lane) (n : Nat) : (a &&& b).rotateLeft n = a.rotateLeft n &&& b.rotateLeft n := by
  apply BitVec.eq_of_getLsbD_eq
  intro i hi
  simp only [getLsbD_rol _ _ _ hi, BitVec.getLsbD_and]

theorem rol_not (a : Lane) (n : Nat) : (~~~ a).rotateLeft n = ~~~ a.rotateLeft n := by
  apply BitVec.eq_of_getLsbD_eq
  intro i hi
  have h : (i + 32 - n % 32) % 32 < 32 := Nat.mod_lt _ (by omega)
  simp only [getLsbD_rol _ _ _ hi, BitVec.getLsbD_not, hi, h]

theorem rol_rol (a : Lane) (m n : Nat) : (a.rotateLeft m).rotateLeft n = a.rotateLeft ((m + n) % 32) := by
  apply BitVec.eq_of_getLsbD_eq
  intro i hi
  rw [getLsbD_rol _ _ _ hi, getLsbD_rol _ _ _ (Nat.mod_lt _ (by omega)), getLsbD_rol _ _ _ hi]
  congr 1
  omega

theorem rol_zero (a : Lane) : a.rotateLeft 0 = a := by
  apply BitVec.eq_of_getLsbD_eq
  intro i hi
  rw [getLsbD_rol _ _ _ hi]
  congr 1
  omega

theorem ror_eq (a : Lane) (n : Nat) (h : n < 32) : a.rotateRight n = a.rotateLeft ((32 - n) % 32) := by
  apply BitVec.eq_of_getLsbD_eq
  intro i hi
  rw [getLsbD_rol _ _ _ hi, BitVec.getLsbD_rotateRight, Nat.mod_eq_of_lt h]
  by_cases hc : i < 32 - n
  · have e : (i + 32 - (32 - n) % 32 % 32) % 32 = n + i := by omega
    rw [e]
    simp [hc]
  · have e : (i + 32 - (32 - n) % 32 % 32) % 32 = i - (32 - n) := by omega
    rw [e]
    simp [hc, hi]

theorem rotl32_eq_rol (a : Lane) (o : Nat) (h0 : 0 < o) (h1 : o < 32) : rotl32 a o = a.rotateLeft o :=
  (XoodooSimd.rotateLeft_eq a o h0 h1).symm

theorem rol_mod (a : Lane) (n : Nat) : a.rotateLeft (n % 32) = a.rotateLeft n := by
  have h := rol_rol a n 0
  rw [rol_zero] at h
  exact h.symm

/-! ### Registers -/

theorem get_set (g : Regs) (d q : Nat) (w : Lane) : set g d w q = if q = d then w else g q := rfl

/-- The state held in the registers: the first plane is in `r2` to `r5`, the others in the registers `b` and `c`; the
planes are rotated by `d`, `e` and `w`. -/
def view (d e w b0 b1 b2 b3 c0 c1 c2 c3 : Nat) (g : Regs) : Lanes
  | 0 => (g 2).rotateLeft d | 1 => (g 3).rotateLeft d | 2 => (g 4).rotateLeft d | 3 => (g 5).rotateLeft d
  | 4 => (g b0).rotateLeft e | 5 => (g b1).rotateLeft e | 6 => (g b2).rotateLeft e | 7 => (g b3).rotateLeft e
  | 8 => (g c0).rotateLeft w | 9 => (g c1).rotateLeft w | 10 => (g c2).rotateLeft w | 11 => (g c3).rotateLeft w

/-- Lanes given one by one. -/
def mk (a0 a1 a2 a3 b0 b1 b2 b3 c0 c1 c2 c3 : Lane) : Lanes
  | 0 => a0 | 1 => a1 | 2 => a2 | 3 => a3 | 4 => b0 | 5 => b1 | 6 => b2 | 7 => b3 | 8 => c0 | 9 => c1 | 10 => c2 | 11 => c3

theorem mk_eta (A : Lanes) : A = mk (A 0) (A 1) (A 2) (A 3) (A 4) (A 5) (A 6) (A 7) (A 8) (A 9) (A 10) (A 11) := by
  funext i
  fin_cases i <;> rfl

theorem view_eq (d e w b0 b1 b2 b3 c0 c1 c2 c3 : Nat) (g : Regs) : view d e w b0 b1 b2 b3 c0 c1 c2 c3 g =
    mk ((g 2).rotateLeft d) ((g 3).rotateLeft d) ((g 4).rotateLeft d) ((g 5).rotateLeft d) ((g b0).rotateLeft e)
      ((g b1).rotateLeft e) ((g b2).rotateLeft e) ((g b3).rotateLeft e) ((g c0).rotateLeft w) ((g c1).rotateLeft w)
      ((g c2).rotateLeft w) ((g c3).rotateLeft w) := mk_eta _

/-- The effect of a column in theta. -/
def eff (p : Lane) : Lane := p.rotateLeft 5 ^^^ p.rotateLeft 14

theorem theta_mk (a0 a1 a2 a3 b0 b1 b2 b3 c0 c1 c2 c3 : Lane) :
    Xoodoo.Ref.theta (mk a0 a1 a2 a3 b0 b1 b2 b3 c0 c1 c2 c3) =
      mk (a0 ^^^ eff (a3 ^^^ b3 ^^^ c3)) (a1 ^^^ eff (a0 ^^^ b0 ^^^ c0)) (a2 ^^^ eff (a1 ^^^ b1 ^^^ c1))
        (a3 ^^^ eff (a2 ^^^ b2 ^^^ c2)) (b0 ^^^ eff (a3 ^^^ b3 ^^^ c3)) (b1 ^^^ eff (a0 ^^^ b0 ^^^ c0))
        (b2 ^^^ eff (a1 ^^^ b1 ^^^ c1)) (b3 ^^^ eff (a2 ^^^ b2 ^^^ c2)) (c0 ^^^ eff (a3 ^^^ b3 ^^^ c3))
        (c1 ^^^ eff (a0 ^^^ b0 ^^^ c0)) (c2 ^^^ eff (a1 ^^^ b1 ^^^ c1)) (c3 ^^^ eff (a2 ^^^ b2 ^^^ c2)) := by
  have h : ∀ p : Lane, eff p = rotl32 p 5 ^^^ rotl32 p 14 := fun p => by
    rw [eff, rotl32_eq_rol _ _ (by omega) (by omega), rotl32_eq_rol _ _ (by omega) (by omega)]
  simp only [h]
  funext i
  fin_cases i <;> rfl

theorem rhoEast_mk (a0 a1 a2 a3 b0 b1 b2 b3 c0 c1 c2 c3 : Lane) :
    Xoodoo.Ref.rhoEast (mk a0 a1 a2 a3 b0 b1 b2 b3 c0 c1 c2 c3) =
      mk a0 a1 a2 a3 (b0.rotateLeft 1) (b1.rotateLeft 1) (b2.rotateLeft 1) (b3.rotateLeft 1) (c2.rotateLeft 8)
        (c3.rotateLeft 8) (c0.rotateLeft 8) (c1.rotateLeft 8) := by
  simp only [← rotl32_eq_rol _ 1 (by omega) (by omega), ← rotl32_eq_rol _ 8 (by omega) (by omega)]
  funext i
  fin_cases i <;> rfl

theorem rhoWest_mk (a0 a1 a2 a3 b0 b1 b2 b3 c0 c1 c2 c3 : Lane) :
    Xoodoo.Ref.rhoWest (mk a0 a1 a2 a3 b0 b1 b2 b3 c0 c1 c2 c3) =
      mk a0 a1 a2 a3 b3 b0 b1 b2 (c0.rotateLeft 11) (c1.rotateLeft 11) (c2.rotateLeft 11) (c3.rotateLeft 11) := by
  simp only [← rotl32_eq_rol _ 11 (by omega) (by omega)]
  funext i
  fin_cases i <;> rfl

theorem chi_mk (a0 a1 a2 a3 b0 b1 b2 b3 c0 c1 c2 c3 : Lane) :
    Xoodoo.Ref.chi (mk a0 a1 a2 a3 b0 b1 b2 b3 c0 c1 c2 c3) =
      mk (a0 ^^^ (~~~ b0 &&& c0)) (a1 ^^^ (~~~ b1 &&& c1)) (a2 ^^^ (~~~ b2 &&& c2)) (a3 ^^^ (~~~ b3 &&& c3))
        (b0 ^^^ (~~~ c0 &&& a0)) (b1 ^^^ (~~~ c1 &&& a1)) (b2 ^^^ (~~~ c2 &&& a2)) (b3 ^^^ (~~~ c3 &&& a3))
        (c0 ^^^ (~~~ a0 &&& b0)) (c1 ^^^ (~~~ a1 &&& b1)) (c2 ^^^ (~~~ a2 &&& b2)) (c3 ^^^ (~~~ a3 &&& b3)) := by
  funext i
  fin_cases i <;> rfl

theorem iota_mk (rc a0 a1 a2 a3 b0 b1 b2 b3 c0 c1 c2 c3 : Lane) :
    Xoodoo.Ref.iota rc (mk a0 a1 a2 a3 b0 b1 b2 b3 c0 c1 c2 c3) = mk (a0 ^^^ rc) a1 a2 a3 b0 b1 b2 b3 c0 c1 c2 c3 := by
  funext i
  fin_cases i <;> rfl

/-! ### Theta -/

theorem eff_eq (a p : Lane) : a ^^^ eff p = (p ^^^ p.rotateLeft 9 ^^^ a.rotateLeft 27).rotateLeft 5 := by
  simp only [eff, rol_xor, rol_rol, Nat.reduceAdd, Nat.reduceMod, rol_zero]
  ac_rfl

/-- `mXor3` for the amounts 0 and 1 to 31. -/
theorem mXor3_eq (ro a0 a1 a2 : Nat) (e w : Int) (e' w' : Nat) (g : Regs)
    (he : (e = 32 ∧ e' = 0) ∨ (e = 1 ∧ e' = 1)) (hw : (w = 32 ∧ w' = 0) ∨ (w = 19 ∧ w' = 19)) (h : a2 ≠ ro) :
    mXor3 ro a0 a1 a2 e w g = set g ro (g a0 ^^^ (g a1).rotateLeft e' ^^^ (g a2).rotateLeft w') := by
  have r : ∀ x : Lane, x.rotateRight 0 = x.rotateLeft 0 := fun x => ror_eq x 0 (by omega)
  have r1 : ∀ x : Lane, x.rotateRight 31 = x.rotateLeft 1 := fun x => ror_eq x 31 (by omega)
  have r2 : ∀ x : Lane, x.rotateRight 13 = x.rotateLeft 19 := fun x => ror_eq x 13 (by omega)
  have k1 : amount 1 = 31 := by decide
  have k2 : amount 19 = 13 := by decide
  rcases he with ⟨rfl, rfl⟩ | ⟨rfl, rfl⟩ <;> rcases hw with ⟨rfl, rfl⟩ | ⟨rfl, rfl⟩ <;>
    funext q <;> by_cases hq : q = ro <;> simp [mXor3, eor, set, h, hq, k1, k2, r1, r2, r]

theorem mRliXor_eq (ro ri : Nat) (rot : Int) (k r : Nat) (g : Regs) (hz : rot.tmod 32 ≠ 0) (hk : amount rot = k)
    (hr : k < 32 ∧ (32 - k) % 32 = r) : mRliXor ro ri rot g = set g ro (g ro ^^^ (g ri).rotateLeft r) := by
  simp only [mRliXor, eor, hk, hz, if_false, ror_eq _ _ hr.1, hr.2]

theorem mRloXor_eq (ro ri : Nat) (rot : Int) (k r : Nat) (g : Regs) (hz : rot.tmod 32 ≠ 0) (hk : amount rot = k)
    (hr : k < 32 ∧ (32 - k) % 32 = r) : mRloXor ro ri rot g = set g ro (g ri ^^^ (g ro).rotateLeft r) := by
  simp only [mRloXor, eor, hk, hz, if_false, ror_eq _ _ hr.1, hr.2]

theorem rli9 (ro ri : Nat) (g : Regs) : mRliXor ro ri (_r1 - _r0) g = set g ro (g ro ^^^ (g ri).rotateLeft 9) :=
  mRliXor_eq _ _ _ 23 _ _ (by decide) (by decide) (by decide)

theorem rlo27 (ro ri : Nat) (g : Regs) : mRloXor ro ri (32 - _r0) g = set g ro (g ri ^^^ (g ro).rotateLeft 27) :=
  mRloXor_eq _ _ _ 5 _ _ (by decide) (by decide) (by decide)

theorem rlo28 (ro ri : Nat) (g : Regs) : mRloXor ro ri (1 - _r0) g = set g ro (g ri ^^^ (g ro).rotateLeft 28) :=
  mRloXor_eq _ _ _ 4 _ _ (by decide) (by decide) (by decide)

theorem rlo14 (ro ri : Nat) (g : Regs) : mRloXor ro ri (19 - _r0) g = set g ro (g ri ^^^ (g ro).rotateLeft 14) :=
  mRloXor_eq _ _ _ 18 _ _ (by decide) (by decide) (by decide)

/-- The registers of the planes 1 and 2 at the start of a round. -/
def Good (b0 b1 b2 b3 c0 c1 c2 c3 : Nat) : Prop :=
  (b0, b1, b2, b3, c0, c1, c2, c3) ∈
    [(6, 7, 8, 9, 10, 11, 12, 14), (9, 6, 7, 8, 12, 14, 10, 11), (8, 9, 6, 7, 10, 11, 12, 14), (7, 8, 9, 6, 12, 14, 10, 11)]

instance (b0 b1 b2 b3 c0 c1 c2 c3 : Nat) : Decidable (Good b0 b1 b2 b3 c0 c1 c2 c3) := by
  unfold Good
  infer_instance

/-- The rotations of the planes 1 and 2 at the start of a round. -/
def Amounts (e w : Int) (e' w' : Nat) : Prop := (e = 32 ∧ w = 32 ∧ e' = 0 ∧ w' = 0) ∨ (e = 1 ∧ w = 19 ∧ e' = 1 ∧ w' = 19)

theorem mk_congr {a0 a1 a2 a3 b0 b1 b2 b3 c0 c1 c2 c3 a0' a1' a2' a3' b0' b1' b2' b3' c0' c1' c2' c3' : Lane}
    (h0 : a0 = a0') (h1 : a1 = a1') (h2 : a2 = a2') (h3 : a3 = a3') (h4 : b0 = b0') (h5 : b1 = b1') (h6 : b2 = b2')
    (h7 : b3 = b3') (h8 : c0 = c0') (h9 : c1 = c1') (h10 : c2 = c2') (h11 : c3 = c3') :
    mk a0 a1 a2 a3 b0 b1 b2 b3 c0 c1 c2 c3 = mk a0' a1' a2' a3' b0' b1' b2' b3' c0' c1' c2' c3' := by
  subst h0 h1 h2 h3 h4 h5 h6 h7 h8 h9 h10 h11
  rfl

theorem theta_view (b0 b1 b2 b3 c0 c1 c2 c3 : Nat) (e w : Int) (e' w' : Nat) (h : Good b0 b1 b2 b3 c0 c1 c2 c3)
    (ha : Amounts e w e' w') (g : Regs) : view 5 5 5 b0 b1 b2 b3 c0 c1 c2 c3 (mTheta b0 b1 b2 b3 c0 c1 c2 c3 e w g) =
      Xoodoo.Ref.theta (view 0 e' w' b0 b1 b2 b3 c0 c1 c2 c3 g) := by
  have x (ro a0 a1 a2 : Nat) (g : Regs) (hn : a2 ≠ ro) :
      mXor3 ro a0 a1 a2 e w g = set g ro (g a0 ^^^ (g a1).rotateLeft e' ^^^ (g a2).rotateLeft w') :=
    mXor3_eq _ _ _ _ _ _ _ _ _ (by rcases ha with ⟨h1, _, h2, _⟩ | ⟨h1, _, h2, _⟩ <;> simp [h1, h2])
      (by rcases ha with ⟨_, h1, _, h2⟩ | ⟨_, h1, _, h2⟩ <;> simp [h1, h2]) hn
  have y1 (ro ri : Nat) (g : Regs) : mRloXor ro ri (e - _r0) g = set g ro (g ri ^^^ (g ro).rotateLeft ((e' + 27) % 32)) := by
    rcases ha with ⟨rfl, _, rfl, _⟩ | ⟨rfl, _, rfl, _⟩
    · exact rlo27 _ _ _
    · exact rlo28 _ _ _
  have y2 (ro ri : Nat) (g : Regs) : mRloXor ro ri (w - _r0) g = set g ro (g ri ^^^ (g ro).rotateLeft ((w' + 27) % 32)) := by
    rcases ha with ⟨_, rfl, _, rfl⟩ | ⟨_, rfl, _, rfl⟩
    · exact rlo27 _ _ _
    · exact rlo14 _ _ _
  clear ha
  simp only [mTheta, rli9, rlo27, y1, y2]
  simp only [view_eq, theta_mk, eff_eq, rol_zero, rol_rol]
  simp only [Good, List.mem_cons, Prod.mk.injEq, List.not_mem_nil, or_false] at h
  rcases h with ⟨rfl, rfl, rfl, rfl, rfl, rfl, rfl, rfl⟩ | ⟨rfl, rfl, rfl, rfl, rfl, rfl, rfl, rfl⟩ |
    ⟨rfl, rfl, rfl, rfl, rfl, rfl, rfl, rfl⟩ | ⟨rfl, rfl, rfl, rfl, rfl, rfl, rfl, rfl⟩ <;>
  · apply mk_congr <;>
      simp only [x, get_set, ne_eq, not_false_eq_true, Nat.reduceEqDiff, OfNat.ofNat_ne_zero, OfNat.ofNat_ne_one,
        OfNat.zero_ne_ofNat, OfNat.one_ne_ofNat, zero_ne_one, one_ne_zero, if_true, if_false]

/-! ### Chi -/

theorem chi3 (a b c : Lane) :
    a ^^^ (c &&& ~~~ b) = a ^^^ (~~~ b &&& c) ∧
    b ^^^ ((a ^^^ (c &&& ~~~ b)) &&& ~~~ c) = b ^^^ (~~~ c &&& a) ∧
    c ^^^ ((b ^^^ ((a ^^^ (c &&& ~~~ b)) &&& ~~~ c)) &&& ~~~ (a ^^^ (c &&& ~~~ b))) = c ^^^ (~~~ a &&& b) := by
  refine ⟨by rw [BitVec.and_comm], ?_, ?_⟩ <;>
  · apply BitVec.eq_of_getLsbD_eq
    intro i hi
    simp only [BitVec.getLsbD_xor, BitVec.getLsbD_and, BitVec.getLsbD_not, hi, decide_true, Bool.true_and]
    cases a.getLsbD i <;> cases b.getLsbD i <;> cases c.getLsbD i <;> rfl

/-- The values of the three registers after `mChi3`. -/
theorem mChi3_eq (a0 a1 a2 : Nat) (g : Regs) (h : 2 ≤ a0 ∧ 2 ≤ a1 ∧ 2 ≤ a2 ∧ a0 ≠ a1 ∧ a0 ≠ a2 ∧ a1 ≠ a2) (q : Nat)
    (hq : 2 ≤ q) : mChi3 a0 a1 a2 0 1 g q =
      if q = a0 then g a0 ^^^ (~~~ g a1 &&& (g a2).rotateLeft 11)
      else if q = a1 then g a1 ^^^ (~~~ (g a2).rotateLeft 11 &&& g a0)
      else if q = a2 then (((g a2).rotateLeft 11) ^^^ (~~~ g a0 &&& g a1)).rotateLeft 21
      else g q := by
  obtain ⟨h0, h1, h2, h01, h02, h12⟩ := h
  have r11 : ∀ x : Lane, x.rotateRight 11 = x.rotateLeft 21 := fun x => ror_eq x 11 (by omega)
  have r21 : ∀ x : Lane, x.rotateRight 21 = x.rotateLeft 11 := fun x => ror_eq x 21 (by omega)
  have r0 : ∀ x : Lane, x.rotateRight 0 = x := fun x => by rw [ror_eq x 0 (by omega)]; exact rol_zero x
  have key := chi3 (g a0) (g a1) ((g a2).rotateLeft 11)
  have e : ∀ x y : Lane, (x &&& ~~~ y.rotateLeft 21).rotateLeft 11 = x.rotateLeft 11 &&& ~~~ y := fun x y => by
    rw [rol_and, rol_not, rol_rol]; exact congrArg (fun z => _ &&& ~~~ z) (rol_zero y)
  have e2 : ∀ x y : Lane, (x.rotateLeft 11 ^^^ y).rotateLeft 21 = x ^^^ y.rotateLeft 21 := fun x y => by
    rw [rol_xor, rol_rol]; exact congrArg (fun z => z ^^^ _) (rol_zero x)
  rw [← key.1, ← key.2.1, ← key.2.2, e2]
  have n0 : ∀ r, 2 ≤ r → r ≠ 0 ∧ r ≠ 1 := fun r hr => by omega
  simp only [mChi3, eor, bic, get_set, _w1, Nat.reduceSub, r11, r21, r0, (n0 _ h0).1, (n0 _ h0).2, (n0 _ h1).1, (n0 _ h1).2,
    (n0 _ h2).1, (n0 _ h2).2, (n0 _ hq).1, (n0 _ hq).2, h01, h02, h12, h01.symm, h02.symm, h12.symm, if_true, if_false,
    zero_ne_one, one_ne_zero, e]
  by_cases c2 : q = a2
  · subst c2; simp [h02.symm, h12.symm]
  · by_cases c1 : q = a1
    · subst c1; simp [h01.symm, h12]
    · by_cases c0 : q = a0
      · subst c0; simp [h01, h02]
      · simp [c0, c1, c2]

/-- The registers `a`, `b` and `c` of a column are different and are not `r0` or `r1`. -/
def Col (a b c : Nat) : Prop := 2 ≤ a ∧ 2 ≤ b ∧ 2 ≤ c ∧ a ≠ b ∧ a ≠ c ∧ b ≠ c

instance (a b c : Nat) : Decidable (Col a b c) := by
  unfold Col
  infer_instance

theorem mChi3_0 (a0 a1 a2 : Nat) (g : Regs) (h : Col a0 a1 a2) :
    mChi3 a0 a1 a2 0 1 g a0 = g a0 ^^^ (~~~ g a1 &&& (g a2).rotateLeft 11) := by
  rw [mChi3_eq _ _ _ _ h _ h.1, if_pos rfl]

theorem mChi3_1 (a0 a1 a2 : Nat) (g : Regs) (h : Col a0 a1 a2) :
    mChi3 a0 a1 a2 0 1 g a1 = g a1 ^^^ (~~~ (g a2).rotateLeft 11 &&& g a0) := by
  rw [mChi3_eq _ _ _ _ h _ h.2.1, if_neg (Ne.symm h.2.2.2.1), if_pos rfl]

theorem mChi3_2 (a0 a1 a2 : Nat) (g : Regs) (h : Col a0 a1 a2) :
    mChi3 a0 a1 a2 0 1 g a2 = (((g a2).rotateLeft 11) ^^^ (~~~ g a0 &&& g a1)).rotateLeft 21 := by
  rw [mChi3_eq _ _ _ _ h _ h.2.2.1, if_neg (Ne.symm h.2.2.2.2.1), if_neg (Ne.symm h.2.2.2.2.2), if_pos rfl]

theorem mChi3_other (a0 a1 a2 q : Nat) (g : Regs) (h : Col a0 a1 a2 ∧ 2 ≤ q ∧ q ≠ a0 ∧ q ≠ a1 ∧ q ≠ a2) :
    mChi3 a0 a1 a2 0 1 g q = g q := by
  rw [mChi3_eq _ _ _ _ h.1 _ h.2.1, if_neg h.2.2.1, if_neg h.2.2.2.1, if_neg h.2.2.2.2]

theorem mIota_eq (rc : Lane) (g : Regs) : mIota rc g = set g 2 (g 2 ^^^ rc) := by
  rw [mIota]
  split
  · next h =>
    subst h
    funext q
    by_cases hq : q = 2
    · simp only [eorImm, get_set, hq, if_true]
      rw [BitVec.xor_assoc]
      rfl
    · simp only [eorImm, get_set, hq, if_false]
  · rfl

/-- The four applications of `mChi3` in a round. -/
def chi4 (r6w r7w r8w r9w r10i r11i r12i lri : Nat) (g : Regs) : Regs :=
  mChi3 5 r9w lri 0 1 (mChi3 4 r8w r12i 0 1 (mChi3 3 r7w r11i 0 1 (mChi3 2 r6w r10i 0 1 g)))

theorem chi_view (b0 b1 b2 b3 c0 c1 c2 c3 : Nat) (rc : Lane) (h : Good b0 b1 b2 b3 c0 c1 c2 c3) (g : Regs) :
    view 5 6 24 b3 b0 b1 b2 c2 c3 c0 c1 (chi4 b3 b0 b1 b2 c0 c1 c2 c3 (mIota rc g)) =
      Xoodoo.Ref.rhoEast (Xoodoo.Ref.chi (Xoodoo.Ref.iota (rc.rotateLeft 5) (Xoodoo.Ref.rhoWest
        (view 5 5 5 b0 b1 b2 b3 c0 c1 c2 c3 g)))) := by
  simp only [mIota_eq, chi4]
  simp only [view_eq, rhoWest_mk, iota_mk, chi_mk, rhoEast_mk, rol_xor, rol_and, rol_not, rol_rol]
  simp only [Good, List.mem_cons, Prod.mk.injEq, List.not_mem_nil, or_false] at h
  rcases h with ⟨rfl, rfl, rfl, rfl, rfl, rfl, rfl, rfl⟩ | ⟨rfl, rfl, rfl, rfl, rfl, rfl, rfl, rfl⟩ |
    ⟨rfl, rfl, rfl, rfl, rfl, rfl, rfl, rfl⟩ | ⟨rfl, rfl, rfl, rfl, rfl, rfl, rfl, rfl⟩ <;>
  · apply mk_congr <;>
      simp (disch := decide) only [mChi3_0, mChi3_1, mChi3_2, mChi3_other, get_set, Nat.reduceEqDiff, if_true, if_false, rol_xor, rol_and, rol_not, rol_rol,
        Nat.reduceAdd, Nat.reduceMod]

theorem round_view (b0 b1 b2 b3 c0 c1 c2 c3 : Nat) (e w : Int) (e' w' : Nat) (rc : Lane)
    (h : Good b0 b1 b2 b3 c0 c1 c2 c3) (ha : Amounts e w e' w') (g : Regs) :
    view 5 6 24 b3 b0 b1 b2 c2 c3 c0 c1 (mRound b0 b1 b2 b3 b3 b0 b1 b2 c0 c1 c2 c3 e w rc g) =
      Xoodoo.Ref.round (rc.rotateLeft 5) (view 0 e' w' b0 b1 b2 b3 c0 c1 c2 c3 g) := by
  rw [Xoodoo.Ref.round, ← theta_view _ _ _ _ _ _ _ _ _ _ _ _ h ha]
  exact chi_view _ _ _ _ _ _ _ _ rc h _

/-! ### Rotating all the lanes -/

/-- All the lanes rotated. -/
def rolAll (d : Nat) (A : Lanes) : Lanes := fun i => (A i).rotateLeft d

theorem rolAll_mk (d : Nat) (a0 a1 a2 a3 b0 b1 b2 b3 c0 c1 c2 c3 : Lane) :
    rolAll d (mk a0 a1 a2 a3 b0 b1 b2 b3 c0 c1 c2 c3) = mk (a0.rotateLeft d) (a1.rotateLeft d) (a2.rotateLeft d)
      (a3.rotateLeft d) (b0.rotateLeft d) (b1.rotateLeft d) (b2.rotateLeft d) (b3.rotateLeft d) (c0.rotateLeft d)
      (c1.rotateLeft d) (c2.rotateLeft d) (c3.rotateLeft d) := by
  funext i
  fin_cases i <;> rfl

theorem eff_rol (p : Lane) (d : Nat) : eff (p.rotateLeft d) = (eff p).rotateLeft d := by
  simp only [eff, rol_xor, rol_rol, Nat.add_comm d]

theorem rol_comm (a : Lane) (m n : Nat) : (a.rotateLeft m).rotateLeft n = (a.rotateLeft n).rotateLeft m := by
  rw [rol_rol, rol_rol, Nat.add_comm]

theorem round_rolAll (d : Nat) (rc : Lane) (A : Lanes) :
    Xoodoo.Ref.round (rc.rotateLeft d) (rolAll d A) = rolAll d (Xoodoo.Ref.round rc A) := by
  have h1 (A : Lanes) : Xoodoo.Ref.theta (rolAll d A) = rolAll d (Xoodoo.Ref.theta A) := by
    rw [mk_eta A]
    simp only [rolAll_mk, theta_mk, ← rol_xor, eff_rol]
  have h2 (A : Lanes) : Xoodoo.Ref.rhoWest (rolAll d A) = rolAll d (Xoodoo.Ref.rhoWest A) := by
    rw [mk_eta A]
    simp only [rolAll_mk, rhoWest_mk, rol_comm _ d 11]
  have h3 (A : Lanes) : Xoodoo.Ref.iota (rc.rotateLeft d) (rolAll d A) = rolAll d (Xoodoo.Ref.iota rc A) := by
    rw [mk_eta A]
    simp only [rolAll_mk, iota_mk, ← rol_xor]
  have h4 (A : Lanes) : Xoodoo.Ref.chi (rolAll d A) = rolAll d (Xoodoo.Ref.chi A) := by
    rw [mk_eta A]
    simp only [rolAll_mk, chi_mk, ← rol_xor, ← rol_and, ← rol_not]
  have h5 (A : Lanes) : Xoodoo.Ref.rhoEast (rolAll d A) = rolAll d (Xoodoo.Ref.rhoEast A) := by
    rw [mk_eta A]
    simp only [rolAll_mk, rhoEast_mk, rol_comm _ d 1, rol_comm _ d 8]
  rw [Xoodoo.Ref.round, h1, h2, h3, h4, h5, Xoodoo.Ref.round]

theorem rolAll_view (d a e w b0 b1 b2 b3 c0 c1 c2 c3 : Nat) (g : Regs) :
    rolAll d (view a e w b0 b1 b2 b3 c0 c1 c2 c3 g) =
      view ((a + d) % 32) ((e + d) % 32) ((w + d) % 32) b0 b1 b2 b3 c0 c1 c2 c3 g := by
  simp only [view_eq, rolAll_mk, rol_rol]

theorem round_view' (d : Nat) (b0 b1 b2 b3 c0 c1 c2 c3 : Nat) (e w : Int) (e' w' : Nat) (rc : Lane)
    (h : Good b0 b1 b2 b3 c0 c1 c2 c3) (ha : Amounts e w e' w') (g : Regs) :
    view ((5 + d) % 32) ((6 + d) % 32) ((24 + d) % 32) b3 b0 b1 b2 c2 c3 c0 c1
        (mRound b0 b1 b2 b3 b3 b0 b1 b2 c0 c1 c2 c3 e w rc g) =
      Xoodoo.Ref.round (rc.rotateLeft ((5 + d) % 32))
        (view ((0 + d) % 32) ((e' + d) % 32) ((w' + d) % 32) b0 b1 b2 b3 c0 c1 c2 c3 g) := by
  rw [← rolAll_view, ← rolAll_view, round_view _ _ _ _ _ _ _ _ _ _ _ _ _ h ha, ← rol_rol, round_rolAll]

/-! ### The permutation -/

theorem first (b0 b1 b2 b3 c0 c1 c2 c3 : Nat) (rc rc' : Lane) (h : Good b0 b1 b2 b3 c0 c1 c2 c3) (g : Regs)
    (hrc : rc.rotateLeft 5 = rc') :
    view 5 6 24 b3 b0 b1 b2 c2 c3 c0 c1 (mRound b0 b1 b2 b3 b3 b0 b1 b2 c0 c1 c2 c3 32 32 rc g) =
      Xoodoo.Ref.round rc' (view 0 0 0 b0 b1 b2 b3 c0 c1 c2 c3 g) := by
  rw [← hrc]
  exact round_view _ _ _ _ _ _ _ _ _ _ _ _ _ h (Or.inl ⟨rfl, rfl, rfl, rfl⟩) g

theorem next (d d1 e w e1 w1 : Nat) (b0 b1 b2 b3 c0 c1 c2 c3 : Nat) (rc rc' : Lane)
    (h : Good b0 b1 b2 b3 c0 c1 c2 c3) (g : Regs) (hd : (5 + d) % 32 = d1 ∧ (6 + d) % 32 = e1 ∧ (24 + d) % 32 = w1 ∧
      (0 + d) % 32 = d ∧ (1 + d) % 32 = e ∧ (19 + d) % 32 = w) (hrc : rc.rotateLeft d1 = rc') :
    view d1 e1 w1 b3 b0 b1 b2 c2 c3 c0 c1 (mRound b0 b1 b2 b3 b3 b0 b1 b2 c0 c1 c2 c3 1 (_e1 + _w1) rc g) =
      Xoodoo.Ref.round rc' (view d e w b0 b1 b2 b3 c0 c1 c2 c3 g) := by
  obtain ⟨h1, h2, h3, h4, h5, h6⟩ := hd
  have := round_view' d b0 b1 b2 b3 c0 c1 c2 c3 1 19 1 19 rc h (Or.inr ⟨rfl, rfl, rfl, rfl⟩) g
  rw [h1, h2, h3, h4, h5, h6, hrc] at this
  exact this

theorem rounds6_eq (g : Regs) : view 30 31 17 6 7 8 9 10 11 12 14 (rounds6 g) =
    Xoodoo.Ref.onWords 6 (view 0 0 0 8 9 6 7 10 11 12 14 g) := by
  rw [rounds6]
  rw [next 25 30 26 12 31 17 7 8 9 6 12 14 10 11 _ (Xoodoo.RC.getD 11 0) (by decide) _ (by decide) (by decide),
    next 20 25 21 7 26 12 8 9 6 7 10 11 12 14 _ (Xoodoo.RC.getD 10 0) (by decide) _ (by decide) (by decide),
    next 15 20 16 2 21 7 9 6 7 8 12 14 10 11 _ (Xoodoo.RC.getD 9 0) (by decide) _ (by decide) (by decide),
    next 10 15 11 29 16 2 6 7 8 9 10 11 12 14 _ (Xoodoo.RC.getD 8 0) (by decide) _ (by decide) (by decide),
    next 5 10 6 24 11 29 7 8 9 6 12 14 10 11 _ (Xoodoo.RC.getD 7 0) (by decide) _ (by decide) (by decide),
    first 8 9 6 7 10 11 12 14 _ (Xoodoo.RC.getD 6 0) (by decide) _ (by decide)]
  rfl

theorem roundsX_eq (g : Regs) : view 30 31 17 8 9 6 7 10 11 12 14 (roundsX g) =
    Xoodoo.Ref.onWords 6 (view 0 0 0 6 7 8 9 10 11 12 14 g) := by
  rw [roundsX]
  rw [next 25 30 26 12 31 17 9 6 7 8 12 14 10 11 _ (Xoodoo.RC.getD 11 0) (by decide) _ (by decide) (by decide),
    next 20 25 21 7 26 12 6 7 8 9 10 11 12 14 _ (Xoodoo.RC.getD 10 0) (by decide) _ (by decide) (by decide),
    next 15 20 16 2 21 7 7 8 9 6 12 14 10 11 _ (Xoodoo.RC.getD 9 0) (by decide) _ (by decide) (by decide),
    next 10 15 11 29 16 2 8 9 6 7 10 11 12 14 _ (Xoodoo.RC.getD 8 0) (by decide) _ (by decide) (by decide),
    next 5 10 6 24 11 29 9 6 7 8 12 14 10 11 _ (Xoodoo.RC.getD 7 0) (by decide) _ (by decide) (by decide),
    first 6 7 8 9 10 11 12 14 _ (Xoodoo.RC.getD 6 0) (by decide) _ (by decide)]
  rfl

theorem rounds12_eq (g : Regs) : view 28 29 15 6 7 8 9 10 11 12 14 (rounds12 g) =
    Xoodoo.Ref.onWords 12 (view 0 0 0 6 7 8 9 10 11 12 14 g) := by
  rw [rounds12]
  rw [next 23 28 24 10 29 15 7 8 9 6 12 14 10 11 _ (Xoodoo.RC.getD 11 0) (by decide) _ (by decide) (by decide),
    next 18 23 19 5 24 10 8 9 6 7 10 11 12 14 _ (Xoodoo.RC.getD 10 0) (by decide) _ (by decide) (by decide),
    next 13 18 14 0 19 5 9 6 7 8 12 14 10 11 _ (Xoodoo.RC.getD 9 0) (by decide) _ (by decide) (by decide),
    next 8 13 9 27 14 0 6 7 8 9 10 11 12 14 _ (Xoodoo.RC.getD 8 0) (by decide) _ (by decide) (by decide),
    next 3 8 4 22 9 27 7 8 9 6 12 14 10 11 _ (Xoodoo.RC.getD 7 0) (by decide) _ (by decide) (by decide),
    next 30 3 31 17 4 22 8 9 6 7 10 11 12 14 _ (Xoodoo.RC.getD 6 0) (by decide) _ (by decide) (by decide),
    next 25 30 26 12 31 17 9 6 7 8 12 14 10 11 _ (Xoodoo.RC.getD 5 0) (by decide) _ (by decide) (by decide),
    next 20 25 21 7 26 12 6 7 8 9 10 11 12 14 _ (Xoodoo.RC.getD 4 0) (by decide) _ (by decide) (by decide),
    next 15 20 16 2 21 7 7 8 9 6 12 14 10 11 _ (Xoodoo.RC.getD 3 0) (by decide) _ (by decide) (by decide),
    next 10 15 11 29 16 2 8 9 6 7 10 11 12 14 _ (Xoodoo.RC.getD 2 0) (by decide) _ (by decide) (by decide),
    next 5 10 6 24 11 29 9 6 7 8 12 14 10 11 _ (Xoodoo.RC.getD 1 0) (by decide) _ (by decide) (by decide),
    first 6 7 8 9 10 11 12 14 _ (Xoodoo.RC.getD 0 0) (by decide) _ (by decide)]
  rfl

theorem stm_undo (n : Int) (a b c a' b' c' : Nat) (g : Regs)
    (h : (32 - (n * _r0).tmod 32).toNat = a' ∧ (32 - (n * _r0 + 1).tmod 32).toNat = b' ∧
      (32 - (n * _r0 + _e1 + _w1).tmod 32).toNat = c')
    (h' : a' < 32 ∧ b' < 32 ∧ c' < 32 ∧ (32 - a') % 32 = a ∧ (32 - b') % 32 = b ∧ (32 - c') % 32 = c) :
    stm (undo n g) = view a b c 6 7 8 9 10 11 12 14 g := by
  obtain ⟨h1, h2, h3⟩ := h
  obtain ⟨l1, l2, l3, m1, m2, m3⟩ := h'
  funext i
  fin_cases i <;>
    simp only [stm, undo, view, h1, h2, h3, rorReg, get_set, Nat.reduceEqDiff, if_true, if_false, ror_eq _ _ l1, ror_eq _ _ l2,
      ror_eq _ _ l3, m1, m2, m3]

theorem permute6_eq (g : Regs) (A : Lanes) : permute6 g A = Xoodoo.Ref.onWords 6 A := by
  rw [permute6, stm_undo 6 30 31 17 2 1 15 _ (by decide) (by decide), rounds6_eq]
  congr 1
  simp only [view_eq, rol_zero]
  exact (mk_eta A).symm

/-- The state in the registers. -/
theorem permute12Asm_eq (g : Regs) : stm (permute12Asm g) = Xoodoo.Ref.onWords 12 (stm g) := by
  rw [permute12Asm, stm_undo 12 28 29 15 4 3 17 _ (by decide) (by decide), rounds12_eq]
  congr 1
  simp only [view_eq, rol_zero]
  exact (mk_eta (stm g)).symm

theorem stm_ldm (g : Regs) (A : Lanes) : stm (ldm g A) = A := by
  funext i
  fin_cases i <;> rfl

theorem permute12_eq (g : Regs) (A : Lanes) : permute12 g A = Xoodoo.Ref.onWords 12 A := by
  rw [permute12, ← permute12Asm, permute12Asm_eq, stm_ldm]

end XoodooArm
