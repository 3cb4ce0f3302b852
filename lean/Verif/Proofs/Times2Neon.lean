import Verif.Model.Times2Neon
import Verif.Proofs.KeccakNeon
import Verif.Proofs.SimdState

/-!
The rounds of the two-state ARMv7-A NEON implementation in assembly are those of the reference implementation.
-/

namespace Times2Neon

open KeccakP1600 (Lane Lanes rstep lane bytesOfLanes lanesOfBytes)
open KeccakP1600.Opt64 (run)
open KeccakP1600.Ref (rol64)
open Avx512Asm (col rest rstep_of)
open Armv8Asm (sriElem chi_comm)
open KeccakNeon (add_sri shl_sri)

/-! ### Instructions -/

theorem step {f : M → Option M} {g : M → Option M} {m m1 : M} {r : Option M} (h1 : f m = some m1) (h2 : g m1 = r) : (f m >>= g) = r := by
  rw [h1, Option.bind_eq_bind, Option.bind_some, h2]

theorem mLd_ok (d next : Nat) (m : M) (a : Nat) (h : m.r3 = 16 * a) (ha : a < 25) :
    mLd d next m = some { m.set d (m.s a) with r3 := 16 * a + if next = 16 then 16 else m.r4 } := by
  unfold mLd vld1
  rw [h, if_pos (by omega), show 16 * a / 16 = a by omega]
  obtain ⟨q, s, t, room, r1, r3, r4, r6⟩ := m
  subst h
  rfl

theorem mSt_ok (d next : Nat) (m : M) (a : Nat) (h : m.r3 = 16 * a) (ha : a < 25) :
    mSt d next m = some { m.put a (m.q d) with r3 := 16 * a + if next = 16 then 16 else m.r4 } := by
  unfold mSt vst1
  rw [h, if_pos (by omega), show 16 * a / 16 = a by omega]
  obtain ⟨q, s, t, room, r1, r3, r4, r6⟩ := m
  subst h
  rfl

theorem pushT_ok (d : Nat) (m : M) (a : Nat) (h : m.r6 = 16 * a) (hr : 64 ≤ m.room) (ha : a < 4) :
    pushT d m = some { m.push a (m.q d) with r6 := 16 * a + 16 } := by
  unfold pushT
  rw [h, if_pos (by omega), show 16 * a / 16 = a by omega]

theorem popT_ok (d : Nat) (m : M) (a : Nat) (h : m.r6 = 16 * a) (hr : 64 ≤ m.room) (ha : a < 4) :
    popT d m = some { m.set d (m.t a) with r6 := 16 * a + 16 } := by
  unfold popT
  rw [h, if_pos (by omega), show 16 * a / 16 = a by omega]

theorem vldRc_ok (i : Fin 2) (m : M) (n : Nat) (rc : Lane) (h : m.r1 = 8 * n) (hrc : roundConstants[n]? = some rc) :
    vldRc i m = some (m.set 15 fun l => if l = i then rc else m.q 15 l) := by
  unfold vldRc
  rw [h, if_pos (by omega), show 8 * n / 8 = n by omega, hrc]
  rfl

/-- The increment of the pointer is the one asked for. -/
theorem next_eq (next r4 : Nat) : (if next = 16 then 16 else if next ≠ 16 then next else r4) = next := by
  by_cases h : next = 16
  · rw [if_pos h, h]
  · rw [if_neg h, if_pos h]

/-- Where the pointer goes next. -/
theorem hop {o : Option Nat} {a b next : Nat} (r4 : Nat) (h : o.getD (16 * a + next) = 16 * b) :
    o.getD (16 * a + if next = 16 then 16 else if next ≠ 16 then next else r4) = 16 * b := by
  rw [next_eq]; exact h

/-! ### Five lanes at a time -/

/-- Adding the effect of theta and rotating, as it is written in the macros. -/
def rawI (k : Nat) (a d : Q) : Q := fun l => sriElem ((a l ^^^ d l) <<< k) (a l ^^^ d l) (64 - k)
def rawG (k : Nat) (a d : Q) : Q := fun l => sriElem ((d l ^^^ a l) <<< k) (d l ^^^ a l) (64 - k)

/-- Adding the effect of theta and rotating. -/
def rx (k : Nat) (a d : Q) : Q := fun l => rol64 (a l ^^^ d l) k

theorem rawI_eq (k : Nat) (a d : Q) (h0 : 0 < k) (h : k < 64) : rawI k a d = rx k a d := by
  funext l
  exact shl_sri _ _ h0 h

theorem rawG_eq (k : Nat) (a d : Q) (h0 : 0 < k) (h : k < 64) : rawG k a d = rx k a d := by
  funext l
  unfold rawG rx
  rw [BitVec.xor_comm (a l)]
  exact shl_sri _ _ h0 h

theorem rol_zero (x : Lane) : rol64 x 0 = x := by
  rfl

/-- Chi, as it is written in the macros. -/
def rawChi (B : Fin 5 → Q) : Fin 5 → Q := fun x l => (B (x + 2) l &&& ~~~ B (x + 1) l) ^^^ B x l

/-- Chi. -/
def chi5 (B : Fin 5 → Q) : Fin 5 → Q := fun x l => B x l ^^^ (~~~ B (x + 1) l &&& B (x + 2) l)

theorem rawChi_eq (B : Fin 5 → Q) : rawChi B = chi5 B := by
  funext x l
  exact (BitVec.xor_comm _ _).trans (chi_comm _ _ _)

/-- Five pairs of lanes are written. -/
def put5 (s : Nat → Q) (a1 a2 a3 a4 a5 : Nat) (v : Fin 5 → Q) : Nat → Q := fun j =>
  if j = a5 then v 4 else if j = a4 then v 3 else if j = a3 then v 2 else if j = a2 then v 1 else if j = a1 then v 0 else s j

/-- The lanes before chi in each of the groups; `f` rotates. -/
def B0 (z : Q → Q → Q) (f : Nat → Q → Q → Q) (s : Nat → Q) (a1 a2 a3 a4 a5 : Nat) (D : Fin 5 → Q) : Fin 5 → Q
  | 0 => z (s a1) (D 0)
  | 1 => f 44 (s a2) (D 1)
  | 2 => f 43 (s a3) (D 2)
  | 3 => f 21 (s a4) (D 3)
  | 4 => f 14 (s a5) (D 4)
def B1 (f : Nat → Q → Q → Q) (s : Nat → Q) (a1 a2 a3 a4 a5 : Nat) (D : Fin 5 → Q) : Fin 5 → Q
  | 2 => f 3 (s a1) (D 0)
  | 3 => f 45 (s a2) (D 1)
  | 4 => f 61 (s a3) (D 2)
  | 0 => f 28 (s a4) (D 3)
  | 1 => f 20 (s a5) (D 4)
def B2 (f : Nat → Q → Q → Q) (s : Nat → Q) (a1 a2 a3 a4 a5 : Nat) (D : Fin 5 → Q) : Fin 5 → Q
  | 4 => f 18 (s a1) (D 0)
  | 0 => f 1 (s a2) (D 1)
  | 1 => f 6 (s a3) (D 2)
  | 2 => f 25 (s a4) (D 3)
  | 3 => f 8 (s a5) (D 4)
def B3 (f : Nat → Q → Q → Q) (s : Nat → Q) (a1 a2 a3 a4 a5 : Nat) (D : Fin 5 → Q) : Fin 5 → Q
  | 1 => f 36 (s a1) (D 0)
  | 2 => f 10 (s a2) (D 1)
  | 3 => f 15 (s a3) (D 2)
  | 4 => f 56 (s a4) (D 3)
  | 0 => f 27 (s a5) (D 4)
def B4 (f : Nat → Q → Q → Q) (s : Nat → Q) (a1 a2 a3 a4 a5 : Nat) (D : Fin 5 → Q) : Fin 5 → Q
  | 3 => f 41 (s a1) (D 0)
  | 4 => f 2 (s a2) (D 1)
  | 0 => f 62 (s a3) (D 2)
  | 1 => f 55 (s a4) (D 3)
  | 2 => f 39 (s a5) (D 4)

theorem B0_eq (s : Nat → Q) (a1 a2 a3 a4 a5 : Nat) (D : Fin 5 → Q) :
    B0 (fun a d l => a l ^^^ d l) rawI s a1 a2 a3 a4 a5 D = B0 (rx 0) rx s a1 a2 a3 a4 a5 D := by
  funext x
  fin_cases x
  · funext l
    exact (rol_zero _).symm
  all_goals exact rawI_eq _ _ _ (by decide) (by decide)

theorem B1_eq (s : Nat → Q) (a1 a2 a3 a4 a5 : Nat) (D : Fin 5 → Q) : B1 rawG s a1 a2 a3 a4 a5 D = B1 rx s a1 a2 a3 a4 a5 D := by
  funext x
  fin_cases x <;> exact rawG_eq _ _ _ (by decide) (by decide)

theorem B2_eq (s : Nat → Q) (a1 a2 a3 a4 a5 : Nat) (D : Fin 5 → Q) : B2 rawG s a1 a2 a3 a4 a5 D = B2 rx s a1 a2 a3 a4 a5 D := by
  funext x
  fin_cases x <;> exact rawG_eq _ _ _ (by decide) (by decide)

theorem B3_eq (s : Nat → Q) (a1 a2 a3 a4 a5 : Nat) (D : Fin 5 → Q) : B3 rawG s a1 a2 a3 a4 a5 D = B3 rx s a1 a2 a3 a4 a5 D := by
  funext x
  fin_cases x <;> exact rawG_eq _ _ _ (by decide) (by decide)

theorem B4_eq (s : Nat → Q) (a1 a2 a3 a4 a5 : Nat) (D : Fin 5 → Q) : B4 rawG s a1 a2 a3 a4 a5 D = B4 rx s a1 a2 a3 a4 a5 D := by
  funext x
  fin_cases x <;> exact rawG_eq _ _ _ (by decide) (by decide)

/-- Iota. -/
def addRc (rc : Lane) (v : Fin 5 → Q) : Fin 5 → Q
  | 0 => fun l => v 0 l ^^^ rc
  | 1 => v 1
  | 2 => v 2
  | 3 => v 3
  | 4 => v 4

/-- The parities of the columns. -/
def cOf (m : M) : Fin 5 → Q := fun x => m.q x.val

/-- The effect of theta. -/
def dOf (m : M) : Fin 5 → Q := fun x => m.q (5 + x.val)

/-- The effect of theta from the parities. -/
def thetaD (c : Fin 5 → Q) : Fin 5 → Q := fun x l => rol64 (c (x + 1) l) 1 ^^^ c (x + 4) l

theorem iotaGroup_ok (m : M) (a1 a2 a3 a4 a5 : Nat) (ofs1 : Nat) (ofs2 ofs3 ofs4 ofs5 : Option Nat) (next ofsn1 n : Nat) (rc : Lane)
    (hr : m.r3 = 16 * a1) (h1 : ofs1 = 16 * a1) (h2 : ofs2.getD (16 * a1 + next) = 16 * a2) (h3 : ofs3.getD (16 * a2 + next) = 16 * a3)
    (h4 : ofs4.getD (16 * a3 + next) = 16 * a4) (h5 : ofs5.getD (16 * a4 + next) = 16 * a5)
    (l1 : a1 < 25) (l2 : a2 < 25) (l3 : a3 < 25) (l4 : a4 < 25) (l5 : a5 < 25) (room : 64 ≤ m.room)
    (hc : m.r1 = 8 * n) (hrc : roundConstants[n]? = some rc) :
    ∃ m', iotaGroup ofs1 ofs2 ofs3 ofs4 ofs5 next ofsn1 m = some m' ∧ m'.r3 = ofsn1 ∧ m'.room = m.room ∧ m'.r1 = 8 * (n + 1) ∧
      dOf m' = thetaD (cOf m) ∧ (∀ x : Fin 4, m'.t x.val = dOf m' x.succ) ∧
      m'.s = put5 m.s a1 a2 a3 a4 a5 (addRc rc (chi5 (B0 (rx 0) rx m.s a1 a2 a3 a4 a5 (thetaD (cOf m))))) ∧
      cOf m' = addRc rc (chi5 (B0 (rx 0) rx m.s a1 a2 a3 a4 a5 (thetaD (cOf m)))) := by
  have hD : (fun (x : Fin 5) (l : Fin 2) => sriElem (m.q (x + 1).val l + m.q (x + 1).val l) (m.q (x + 1).val l) 63 ^^^ m.q (x + 4).val l) =
      thetaD (cOf m) := by
    funext x l
    rw [add_sri]
    rfl
  rw [← B0_eq, ← rawChi_eq, ← hD]
  obtain ⟨q, s, t, rm, r1, r3, r4, r6⟩ := m
  subst hr h1 hc
  refine ⟨_, step (mLd_ok 10 next _ a1 rfl l1) (step (mLd_ok 1 next _ a2 (hop r4 h2) l2) (step (mLd_ok 2 next _ a3 (hop r4 h3) l3)
    (step (mLd_ok 3 next _ a4 (hop r4 h4) l4) (step (mLd_ok 4 next _ a5 (hop r4 h5) l5)
    (step (pushT_ok 6 _ 0 rfl room (by decide)) (step (pushT_ok 7 _ 1 rfl room (by decide)) (step (pushT_ok 8 _ 2 rfl room (by decide))
    (step (pushT_ok 9 _ 3 rfl room (by decide)) (step (vldRc_ok 0 _ n rc rfl hrc) (step (vldRc_ok 1 _ n rc rfl hrc)
    (step (mSt_ok 0 next _ a1 rfl l1) (step (mSt_ok 1 next _ a2 (hop r4 h2) l2) (step (mSt_ok 2 next _ a3 (hop r4 h3) l3)
    (step (mSt_ok 3 next _ a4 (hop r4 h4) l4) (step (mSt_ok 4 next _ a5 (hop r4 h5) l5) rfl))))))))))))))), ?_⟩
  refine ⟨rfl, rfl, rfl, ?_, ?_, ?_, ?_⟩
  · funext x
    fin_cases x <;> rfl
  · intro x
    fin_cases x <;> rfl
  · funext j
    show (if j = a5 then _ else if j = a4 then _ else if j = a3 then _ else if j = a2 then _ else if j = a1 then _ else _) = 
      (if j = a5 then _ else if j = a4 then _ else if j = a3 then _ else if j = a2 then _ else if j = a1 then _ else _)
    congr 5
    funext l
    fin_cases l <;> rfl
  · funext x
    fin_cases x
    · funext l
      fin_cases l <;> rfl
    all_goals rfl

theorem group1_ok (m : M) (a1 a2 a3 a4 a5 : Nat) (ofs1 : Nat) (ofs2 ofs3 ofs4 ofs5 : Option Nat) (next ofsn1 : Nat) (D : Fin 5 → Q)
    (hr : m.r3 = 16 * a1) (h1 : ofs1 = 16 * a1) (h2 : ofs2.getD (16 * a1 + next) = 16 * a2) (h3 : ofs3.getD (16 * a2 + next) = 16 * a3)
    (h4 : ofs4.getD (16 * a3 + next) = 16 * a4) (h5 : ofs5.getD (16 * a4 + next) = 16 * a5)
    (l1 : a1 < 25) (l2 : a2 < 25) (l3 : a3 < 25) (l4 : a4 < 25) (l5 : a5 < 25) (room : 64 ≤ m.room)
    (hd : dOf m = D) (ht : ∀ x : Fin 4, m.t x.val = D x.succ) :
    ∃ m', group1 ofs1 ofs2 ofs3 ofs4 ofs5 next ofsn1 m = some m' ∧ m'.r3 = ofsn1 ∧ m'.room = m.room ∧ m'.r1 = m.r1 ∧
      dOf m' = D ∧ (∀ x : Fin 4, m'.t x.val = D x.succ) ∧
      m'.s = put5 m.s a1 a2 a3 a4 a5 (chi5 (B1 rx m.s a1 a2 a3 a4 a5 D)) ∧
      cOf m' = fun x l => cOf m x l ^^^ chi5 (B1 rx m.s a1 a2 a3 a4 a5 D) x l := by
  subst hd
  rw [← B1_eq, ← rawChi_eq]
  obtain ⟨q, s, t, rm, r1, r3, r4, r6⟩ := m
  subst hr h1
  refine ⟨_, step (mLd_ok 12 next _ a1 rfl l1) (step (mLd_ok 13 next _ a2 (hop r4 h2) l2) (step (mLd_ok 14 next _ a3 (hop r4 h3) l3)
    (step (mLd_ok 10 next _ a4 (hop r4 h4) l4) (step (mLd_ok 11 next _ a5 (hop r4 h5) l5)
    (step (mSt_ok 15 next _ a1 rfl l1) (step (mSt_ok 6 next _ a2 (hop r4 h2) l2) (step (popT_ok 6 _ 0 rfl room (by decide))
    (step (mSt_ok 7 next _ a3 (hop r4 h3) l3) (step (popT_ok 7 _ 1 rfl room (by decide)) (step (mSt_ok 8 next _ a4 (hop r4 h4) l4)
    (step (mSt_ok 9 next _ a5 (hop r4 h5) l5) (step (popT_ok 8 _ 2 rfl room (by decide)) (step (popT_ok 9 _ 3 rfl room (by decide))
    rfl))))))))))))), ?_⟩
  refine ⟨rfl, rfl, rfl, ?_, ht, rfl, ?_⟩
  · funext x
    fin_cases x
    · rfl
    · exact ht 0
    · exact ht 1
    · exact ht 2
    · exact ht 3
  · funext x
    fin_cases x <;> rfl

theorem group2_ok (m : M) (a1 a2 a3 a4 a5 : Nat) (ofs1 : Nat) (ofs2 ofs3 ofs4 ofs5 : Option Nat) (next ofsn1 : Nat) (D : Fin 5 → Q)
    (hr : m.r3 = 16 * a1) (h1 : ofs1 = 16 * a1) (h2 : ofs2.getD (16 * a1 + next) = 16 * a2) (h3 : ofs3.getD (16 * a2 + next) = 16 * a3)
    (h4 : ofs4.getD (16 * a3 + next) = 16 * a4) (h5 : ofs5.getD (16 * a4 + next) = 16 * a5)
    (l1 : a1 < 25) (l2 : a2 < 25) (l3 : a3 < 25) (l4 : a4 < 25) (l5 : a5 < 25) (room : 64 ≤ m.room)
    (hd : dOf m = D) (ht : ∀ x : Fin 4, m.t x.val = D x.succ) :
    ∃ m', group2 ofs1 ofs2 ofs3 ofs4 ofs5 next ofsn1 m = some m' ∧ m'.r3 = ofsn1 ∧ m'.room = m.room ∧ m'.r1 = m.r1 ∧
      dOf m' = D ∧ (∀ x : Fin 4, m'.t x.val = D x.succ) ∧
      m'.s = put5 m.s a1 a2 a3 a4 a5 (chi5 (B2 rx m.s a1 a2 a3 a4 a5 D)) ∧
      cOf m' = fun x l => cOf m x l ^^^ chi5 (B2 rx m.s a1 a2 a3 a4 a5 D) x l := by
  subst hd
  rw [← B2_eq, ← rawChi_eq]
  obtain ⟨q, s, t, rm, r1, r3, r4, r6⟩ := m
  subst hr h1
  refine ⟨_, step (mLd_ok 14 next _ a1 rfl l1) (step (mLd_ok 10 next _ a2 (hop r4 h2) l2) (step (mLd_ok 11 next _ a3 (hop r4 h3) l3)
    (step (mLd_ok 12 next _ a4 (hop r4 h4) l4) (step (mLd_ok 13 next _ a5 (hop r4 h5) l5)
    (step (mSt_ok 15 next _ a1 rfl l1) (step (mSt_ok 6 next _ a2 (hop r4 h2) l2) (step (popT_ok 6 _ 0 rfl room (by decide))
    (step (mSt_ok 7 next _ a3 (hop r4 h3) l3) (step (popT_ok 7 _ 1 rfl room (by decide)) (step (mSt_ok 8 next _ a4 (hop r4 h4) l4)
    (step (mSt_ok 9 next _ a5 (hop r4 h5) l5) (step (popT_ok 8 _ 2 rfl room (by decide)) (step (popT_ok 9 _ 3 rfl room (by decide))
    rfl))))))))))))), ?_⟩
  refine ⟨rfl, rfl, rfl, ?_, ht, rfl, ?_⟩
  · funext x
    fin_cases x
    · rfl
    · exact ht 0
    · exact ht 1
    · exact ht 2
    · exact ht 3
  · funext x
    fin_cases x <;> rfl

theorem group3_ok (m : M) (a1 a2 a3 a4 a5 : Nat) (ofs1 : Nat) (ofs2 ofs3 ofs4 ofs5 : Option Nat) (next ofsn1 : Nat) (D : Fin 5 → Q)
    (hr : m.r3 = 16 * a1) (h1 : ofs1 = 16 * a1) (h2 : ofs2.getD (16 * a1 + next) = 16 * a2) (h3 : ofs3.getD (16 * a2 + next) = 16 * a3)
    (h4 : ofs4.getD (16 * a3 + next) = 16 * a4) (h5 : ofs5.getD (16 * a4 + next) = 16 * a5)
    (l1 : a1 < 25) (l2 : a2 < 25) (l3 : a3 < 25) (l4 : a4 < 25) (l5 : a5 < 25) (room : 64 ≤ m.room)
    (hd : dOf m = D) (ht : ∀ x : Fin 4, m.t x.val = D x.succ) :
    ∃ m', group3 ofs1 ofs2 ofs3 ofs4 ofs5 next ofsn1 m = some m' ∧ m'.r3 = ofsn1 ∧ m'.room = m.room ∧ m'.r1 = m.r1 ∧
      dOf m' = D ∧ (∀ x : Fin 4, m'.t x.val = D x.succ) ∧
      m'.s = put5 m.s a1 a2 a3 a4 a5 (chi5 (B3 rx m.s a1 a2 a3 a4 a5 D)) ∧
      cOf m' = fun x l => cOf m x l ^^^ chi5 (B3 rx m.s a1 a2 a3 a4 a5 D) x l := by
  subst hd
  rw [← B3_eq, ← rawChi_eq]
  obtain ⟨q, s, t, rm, r1, r3, r4, r6⟩ := m
  subst hr h1
  refine ⟨_, step (mLd_ok 11 next _ a1 rfl l1) (step (mLd_ok 12 next _ a2 (hop r4 h2) l2) (step (mLd_ok 13 next _ a3 (hop r4 h3) l3)
    (step (mLd_ok 14 next _ a4 (hop r4 h4) l4) (step (mLd_ok 10 next _ a5 (hop r4 h5) l5)
    (step (mSt_ok 15 next _ a1 rfl l1) (step (mSt_ok 6 next _ a2 (hop r4 h2) l2) (step (popT_ok 6 _ 0 rfl room (by decide))
    (step (mSt_ok 7 next _ a3 (hop r4 h3) l3) (step (popT_ok 7 _ 1 rfl room (by decide)) (step (mSt_ok 8 next _ a4 (hop r4 h4) l4)
    (step (mSt_ok 9 next _ a5 (hop r4 h5) l5) (step (popT_ok 8 _ 2 rfl room (by decide)) (step (popT_ok 9 _ 3 rfl room (by decide))
    rfl))))))))))))), ?_⟩
  refine ⟨rfl, rfl, rfl, ?_, ht, rfl, ?_⟩
  · funext x
    fin_cases x
    · rfl
    · exact ht 0
    · exact ht 1
    · exact ht 2
    · exact ht 3
  · funext x
    fin_cases x <;> rfl

theorem group4_ok (m : M) (a1 a2 a3 a4 a5 : Nat) (ofs1 : Nat) (ofs2 ofs3 ofs4 ofs5 : Option Nat) (next ofsn1 : Nat) (D : Fin 5 → Q)
    (hr : m.r3 = 16 * a1) (h1 : ofs1 = 16 * a1) (h2 : ofs2.getD (16 * a1 + next) = 16 * a2) (h3 : ofs3.getD (16 * a2 + next) = 16 * a3)
    (h4 : ofs4.getD (16 * a3 + next) = 16 * a4) (h5 : ofs5.getD (16 * a4 + next) = 16 * a5)
    (l1 : a1 < 25) (l2 : a2 < 25) (l3 : a3 < 25) (l4 : a4 < 25) (l5 : a5 < 25) (hd : dOf m = D) :
    ∃ m', group4 ofs1 ofs2 ofs3 ofs4 ofs5 next ofsn1 m = some m' ∧ m'.r3 = ofsn1 ∧ m'.room = m.room ∧ m'.r1 = m.r1 ∧
      m'.s = put5 m.s a1 a2 a3 a4 a5 (chi5 (B4 rx m.s a1 a2 a3 a4 a5 D)) ∧
      cOf m' = fun x l => cOf m x l ^^^ chi5 (B4 rx m.s a1 a2 a3 a4 a5 D) x l := by
  subst hd
  rw [← B4_eq, ← rawChi_eq]
  obtain ⟨q, s, t, rm, r1, r3, r4, r6⟩ := m
  subst hr h1
  refine ⟨_, step (mLd_ok 13 next _ a1 rfl l1) (step (mLd_ok 14 next _ a2 (hop r4 h2) l2) (step (mLd_ok 10 next _ a3 (hop r4 h3) l3)
    (step (mLd_ok 11 next _ a4 (hop r4 h4) l4) (step (mLd_ok 12 next _ a5 (hop r4 h5) l5)
    (step (mSt_ok 5 next _ a1 rfl l1) (step (mSt_ok 6 next _ a2 (hop r4 h2) l2)
    (step (mSt_ok 7 next _ a3 (hop r4 h3) l3) (step (mSt_ok 8 next _ a4 (hop r4 h4) l4)
    (step (mSt_ok 9 next _ a5 (hop r4 h5) l5) rfl))))))))), ?_⟩
  refine ⟨rfl, rfl, rfl, rfl, ?_⟩
  funext x
  fin_cases x <;> rfl

/-! ### The rounds -/

/-- The state of an instance, when lane `i` is at place `L i`. -/
def lanesAt (L : Fin 25 → Nat) (s : Nat → Q) (l : Fin 2) : Lanes := fun i => s (L i) l

/-- Where the lanes are before each of the four rounds of the loop. -/
def L0 (i : Fin 25) : Nat := i.val
def L1 (i : Fin 25) : Nat := [0, 6, 12, 18, 24, 10, 16, 22, 3, 9, 20, 1, 7, 13, 19, 5, 11, 17, 23, 4, 15, 21, 2, 8, 14].getD i.val 0
def L2 (i : Fin 25) : Nat := [0, 16, 7, 23, 14, 20, 11, 2, 18, 9, 15, 6, 22, 13, 4, 10, 1, 17, 8, 24, 5, 21, 12, 3, 19].getD i.val 0
def L3 (i : Fin 25) : Nat := [0, 11, 22, 8, 19, 15, 1, 12, 23, 9, 5, 16, 2, 13, 24, 20, 6, 17, 3, 14, 10, 21, 7, 18, 4].getD i.val 0

/-- The five groups of a round. -/
def roundS (a : Fin 5 → Fin 5 → Nat) (rc : Lane) (D : Fin 5 → Q) (s : Nat → Q) : Nat → Q :=
  let s := put5 s (a 0 0) (a 0 1) (a 0 2) (a 0 3) (a 0 4) (addRc rc (chi5 (B0 (rx 0) rx s (a 0 0) (a 0 1) (a 0 2) (a 0 3) (a 0 4) D)))
  let s := put5 s (a 1 0) (a 1 1) (a 1 2) (a 1 3) (a 1 4) (chi5 (B1 rx s (a 1 0) (a 1 1) (a 1 2) (a 1 3) (a 1 4) D))
  let s := put5 s (a 2 0) (a 2 1) (a 2 2) (a 2 3) (a 2 4) (chi5 (B2 rx s (a 2 0) (a 2 1) (a 2 2) (a 2 3) (a 2 4) D))
  let s := put5 s (a 3 0) (a 3 1) (a 3 2) (a 3 3) (a 3 4) (chi5 (B3 rx s (a 3 0) (a 3 1) (a 3 2) (a 3 3) (a 3 4) D))
  put5 s (a 4 0) (a 4 1) (a 4 2) (a 4 3) (a 4 4) (chi5 (B4 rx s (a 4 0) (a 4 1) (a 4 2) (a 4 3) (a 4 4) D))

/-- The places of the groups of a round, when the lanes are at the places `L` after it. -/
def places (L : Fin 25 → Nat) (y x : Fin 5) : Nat := L (lane x y)

/-- Between two rounds: the pointers, the space on the stack, and the parities of the columns. -/
structure Ready (L : Fin 25 → Nat) (m : M) (n : Nat) : Prop where
  r3 : m.r3 = 0
  r1 : m.r1 = 8 * n
  room : 64 ≤ m.room
  c : ∀ x l, cOf m x l = col (lanesAt L m.s l) x

theorem roundS0_lane (rc : Lane) (D : Fin 5 → Q) (s : Nat → Q) (l : Fin 2) (x y : Fin 5) :
    lanesAt L1 (roundS (places L1) rc D s) l (lane x y) =
      rest rc (fun i => rol64 (lanesAt L0 s l i ^^^ D ⟨i.val % 5, Nat.mod_lt _ (by decide)⟩ l) (KeccakP1600.Ref.rhoOffsets.getD i.val 0)) x y := by
  fin_cases x <;> fin_cases y <;> rfl

theorem roundS1_lane (rc : Lane) (D : Fin 5 → Q) (s : Nat → Q) (l : Fin 2) (x y : Fin 5) :
    lanesAt L2 (roundS (places L2) rc D s) l (lane x y) =
      rest rc (fun i => rol64 (lanesAt L1 s l i ^^^ D ⟨i.val % 5, Nat.mod_lt _ (by decide)⟩ l) (KeccakP1600.Ref.rhoOffsets.getD i.val 0)) x y := by
  fin_cases x <;> fin_cases y <;> rfl

theorem roundS2_lane (rc : Lane) (D : Fin 5 → Q) (s : Nat → Q) (l : Fin 2) (x y : Fin 5) :
    lanesAt L3 (roundS (places L3) rc D s) l (lane x y) =
      rest rc (fun i => rol64 (lanesAt L2 s l i ^^^ D ⟨i.val % 5, Nat.mod_lt _ (by decide)⟩ l) (KeccakP1600.Ref.rhoOffsets.getD i.val 0)) x y := by
  fin_cases x <;> fin_cases y <;> rfl

theorem roundS3_lane (rc : Lane) (D : Fin 5 → Q) (s : Nat → Q) (l : Fin 2) (x y : Fin 5) :
    lanesAt L0 (roundS (places L0) rc D s) l (lane x y) =
      rest rc (fun i => rol64 (lanesAt L3 s l i ^^^ D ⟨i.val % 5, Nat.mod_lt _ (by decide)⟩ l) (KeccakP1600.Ref.rhoOffsets.getD i.val 0)) x y := by
  fin_cases x <;> fin_cases y <;> rfl

theorem round0_ok (m : M) (n : Nat) (rc : Lane) (h : Ready L0 m n) (hrc : roundConstants[n]? = some rc) :
    ∃ m', round0 m = some m' ∧ Ready L1 m' (n + 1) ∧ ∀ l, lanesAt L1 m'.s l = rstep rc (lanesAt L0 m.s l) := by
  obtain ⟨m0, e0, p0, k0, c0, d0, t0, s0, q0⟩ := iotaGroup_ok m 0 6 12 18 24 _ba none none none none (_ge - _ba) _ka n rc h.r3 rfl rfl rfl rfl rfl
    (by decide) (by decide) (by decide) (by decide) (by decide) h.room h.r1 hrc
  rw [d0] at t0
  obtain ⟨m1, e1, p1, k1, c1, d1, t1, s1, q1⟩ := group1_ok m0 10 16 22 3 9 _ka none none (some _bo) none (_me - _ka) _sa _ p0 rfl rfl rfl rfl rfl
    (by decide) (by decide) (by decide) (by decide) (by decide) (by rw [k0]; exact h.room) d0 t0
  obtain ⟨m2, e2, p2, k2, c2, d2, t2, s2, q2⟩ := group2_ok m1 20 1 7 13 19 _sa (some _be) none none none (_gi - _be) _ga _ p1 rfl rfl rfl rfl rfl
    (by decide) (by decide) (by decide) (by decide) (by decide) (by rw [k1, k0]; exact h.room) d1 t1
  obtain ⟨m3, e3, p3, k3, c3, d3, t3, s3, q3⟩ := group3_ok m2 5 11 17 23 4 _ga none none none (some _bu) (_ke - _ga) _ma _ p2 rfl rfl rfl rfl rfl
    (by decide) (by decide) (by decide) (by decide) (by decide) (by rw [k2, k1, k0]; exact h.room) d2 t2
  obtain ⟨m4, e4, p4, k4, c4, s4, q4⟩ := group4_ok m3 15 21 2 8 14 _ma none (some _bi) none none (_se - _ma) _ba _ p3 rfl rfl rfl rfl rfl
    (by decide) (by decide) (by decide) (by decide) (by decide) d3
  have hs : m4.s = roundS (places L1) rc (thetaD (cOf m)) m.s := by
    rw [s4, s3, s2, s1, s0]
    rfl
  refine ⟨m4, ?_, ⟨p4, by rw [c4, c3, c2, c1, c0], by rw [k4, k3, k2, k1, k0]; exact h.room, fun x l => ?_⟩, fun l => ?_⟩
  · unfold round0
    exact step e0 (step e1 (step e2 (step e3 e4)))
  · rw [hs, q4, q3, q2, q1, q0, s3, s2, s1, s0]
    fin_cases x <;> rfl
  · refine rstep_of rc _ (fun i => rol64 (lanesAt L0 m.s l i ^^^ thetaD (cOf m) ⟨i.val % 5, Nat.mod_lt _ (by decide)⟩ l)
      (KeccakP1600.Ref.rhoOffsets.getD i.val 0)) _ (fun x y => ?_) (fun x y => ?_)
    · rw [BitVec.xor_assoc, ← h.c, ← h.c]
      fin_cases x <;> fin_cases y <;> rfl
    · rw [hs]
      exact roundS0_lane rc _ _ l x y

theorem round1_ok (m : M) (n : Nat) (rc : Lane) (h : Ready L1 m n) (hrc : roundConstants[n]? = some rc) :
    ∃ m', round1 m = some m' ∧ Ready L2 m' (n + 1) ∧ ∀ l, lanesAt L2 m'.s l = rstep rc (lanesAt L1 m.s l) := by
  obtain ⟨m0, e0, p0, k0, c0, d0, t0, s0, q0⟩ := iotaGroup_ok m 0 16 7 23 14 _ba none (some _gi) none (some _ku) (_me - _ba) _sa n rc h.r3 rfl rfl rfl rfl rfl
    (by decide) (by decide) (by decide) (by decide) (by decide) h.room h.r1 hrc
  rw [d0] at t0
  obtain ⟨m1, e1, p1, k1, c1, d1, t1, s1, q1⟩ := group1_ok m0 20 11 2 18 9 _sa (some _ke) (some _bi) none (some _gu) (_mo - _bi) _ma _ p0 rfl rfl rfl rfl rfl
    (by decide) (by decide) (by decide) (by decide) (by decide) (by rw [k0]; exact h.room) d0 t0
  obtain ⟨m2, e2, p2, k2, c2, d2, t2, s2, q2⟩ := group2_ok m1 15 6 22 13 4 _ma (some _ge) none (some _ko) (some _bu) (_si - _ge) _ka _ p1 rfl rfl rfl rfl rfl
    (by decide) (by decide) (by decide) (by decide) (by decide) (by rw [k1, k0]; exact h.room) d1 t1
  obtain ⟨m3, e3, p3, k3, c3, d3, t3, s3, q3⟩ := group3_ok m2 10 1 17 8 24 _ka (some _be) none (some _go) none (_mi - _be) _ga _ p2 rfl rfl rfl rfl rfl
    (by decide) (by decide) (by decide) (by decide) (by decide) (by rw [k2, k1, k0]; exact h.room) d2 t2
  obtain ⟨m4, e4, p4, k4, c4, s4, q4⟩ := group4_ok m3 5 21 12 3 19 _ga none (some _ki) (some _bo) none (_se - _ga) _ba _ p3 rfl rfl rfl rfl rfl
    (by decide) (by decide) (by decide) (by decide) (by decide) d3
  have hs : m4.s = roundS (places L2) rc (thetaD (cOf m)) m.s := by
    rw [s4, s3, s2, s1, s0]
    rfl
  refine ⟨m4, ?_, ⟨p4, by rw [c4, c3, c2, c1, c0], by rw [k4, k3, k2, k1, k0]; exact h.room, fun x l => ?_⟩, fun l => ?_⟩
  · unfold round1
    exact step e0 (step e1 (step e2 (step e3 e4)))
  · rw [hs, q4, q3, q2, q1, q0, s3, s2, s1, s0]
    fin_cases x <;> rfl
  · refine rstep_of rc _ (fun i => rol64 (lanesAt L1 m.s l i ^^^ thetaD (cOf m) ⟨i.val % 5, Nat.mod_lt _ (by decide)⟩ l)
      (KeccakP1600.Ref.rhoOffsets.getD i.val 0)) _ (fun x y => ?_) (fun x y => ?_)
    · rw [BitVec.xor_assoc, ← h.c, ← h.c]
      fin_cases x <;> fin_cases y <;> rfl
    · rw [hs]
      exact roundS1_lane rc _ _ l x y

theorem round2_ok (m : M) (n : Nat) (rc : Lane) (h : Ready L2 m n) (hrc : roundConstants[n]? = some rc) :
    ∃ m', round2 m = some m' ∧ Ready L3 m' (n + 1) ∧ ∀ l, lanesAt L3 m'.s l = rstep rc (lanesAt L2 m.s l) := by
  obtain ⟨m0, e0, p0, k0, c0, d0, t0, s0, q0⟩ := iotaGroup_ok m 0 11 22 8 19 _ba none none (some _go) none (_ke - _ba) _ma n rc h.r3 rfl rfl rfl rfl rfl
    (by decide) (by decide) (by decide) (by decide) (by decide) h.room h.r1 hrc
  rw [d0] at t0
  obtain ⟨m1, e1, p1, k1, c1, d1, t1, s1, q1⟩ := group1_ok m0 15 1 12 23 9 _ma (some _be) none none (some _gu) (_ki - _be) _ga _ p0 rfl rfl rfl rfl rfl
    (by decide) (by decide) (by decide) (by decide) (by decide) (by rw [k0]; exact h.room) d0 t0
  obtain ⟨m2, e2, p2, k2, c2, d2, t2, s2, q2⟩ := group2_ok m1 5 16 2 13 24 _ga none (some _bi) none none (_me - _ga) _sa _ p1 rfl rfl rfl rfl rfl
    (by decide) (by decide) (by decide) (by decide) (by decide) (by rw [k1, k0]; exact h.room) d1 t1
  obtain ⟨m3, e3, p3, k3, c3, d3, t3, s3, q3⟩ := group3_ok m2 20 6 17 3 14 _sa (some _ge) none (some _bo) none (_mi - _ge) _ka _ p2 rfl rfl rfl rfl rfl
    (by decide) (by decide) (by decide) (by decide) (by decide) (by rw [k2, k1, k0]; exact h.room) d2 t2
  obtain ⟨m4, e4, p4, k4, c4, s4, q4⟩ := group4_ok m3 10 21 7 18 4 _ka none (some _gi) none (some _bu) (_se - _ka) _ba _ p3 rfl rfl rfl rfl rfl
    (by decide) (by decide) (by decide) (by decide) (by decide) d3
  have hs : m4.s = roundS (places L3) rc (thetaD (cOf m)) m.s := by
    rw [s4, s3, s2, s1, s0]
    rfl
  refine ⟨m4, ?_, ⟨p4, by rw [c4, c3, c2, c1, c0], by rw [k4, k3, k2, k1, k0]; exact h.room, fun x l => ?_⟩, fun l => ?_⟩
  · unfold round2
    exact step e0 (step e1 (step e2 (step e3 e4)))
  · rw [hs, q4, q3, q2, q1, q0, s3, s2, s1, s0]
    fin_cases x <;> rfl
  · refine rstep_of rc _ (fun i => rol64 (lanesAt L2 m.s l i ^^^ thetaD (cOf m) ⟨i.val % 5, Nat.mod_lt _ (by decide)⟩ l)
      (KeccakP1600.Ref.rhoOffsets.getD i.val 0)) _ (fun x y => ?_) (fun x y => ?_)
    · rw [BitVec.xor_assoc, ← h.c, ← h.c]
      fin_cases x <;> fin_cases y <;> rfl
    · rw [hs]
      exact roundS2_lane rc _ _ l x y

theorem round3_ok (m : M) (n : Nat) (rc : Lane) (h : Ready L3 m n) (hrc : roundConstants[n]? = some rc) :
    ∃ m', round3 m = some m' ∧ Ready L0 m' (n + 1) ∧ ∀ l, lanesAt L0 m'.s l = rstep rc (lanesAt L3 m.s l) := by
  obtain ⟨m0, e0, p0, k0, c0, d0, t0, s0, q0⟩ := iotaGroup_ok m 0 1 2 3 4 _ba none none none none (_be - _ba) _ga n rc h.r3 rfl rfl rfl rfl rfl
    (by decide) (by decide) (by decide) (by decide) (by decide) h.room h.r1 hrc
  rw [d0] at t0
  obtain ⟨m1, e1, p1, k1, c1, d1, t1, s1, q1⟩ := group1_ok m0 5 6 7 8 9 _ga none none none none (_ge - _ga) _ka _ p0 rfl rfl rfl rfl rfl
    (by decide) (by decide) (by decide) (by decide) (by decide) (by rw [k0]; exact h.room) d0 t0
  obtain ⟨m2, e2, p2, k2, c2, d2, t2, s2, q2⟩ := group2_ok m1 10 11 12 13 14 _ka none none none none (_ke - _ka) _ma _ p1 rfl rfl rfl rfl rfl
    (by decide) (by decide) (by decide) (by decide) (by decide) (by rw [k1, k0]; exact h.room) d1 t1
  obtain ⟨m3, e3, p3, k3, c3, d3, t3, s3, q3⟩ := group3_ok m2 15 16 17 18 19 _ma none none none none (_me - _ma) _sa _ p2 rfl rfl rfl rfl rfl
    (by decide) (by decide) (by decide) (by decide) (by decide) (by rw [k2, k1, k0]; exact h.room) d2 t2
  obtain ⟨m4, e4, p4, k4, c4, s4, q4⟩ := group4_ok m3 20 21 22 23 24 _sa none none none none (_se - _sa) _ba _ p3 rfl rfl rfl rfl rfl
    (by decide) (by decide) (by decide) (by decide) (by decide) d3
  have hs : m4.s = roundS (places L0) rc (thetaD (cOf m)) m.s := by
    rw [s4, s3, s2, s1, s0]
    rfl
  refine ⟨m4, ?_, ⟨p4, by rw [c4, c3, c2, c1, c0], by rw [k4, k3, k2, k1, k0]; exact h.room, fun x l => ?_⟩, fun l => ?_⟩
  · unfold round3
    exact step e0 (step e1 (step e2 (step e3 e4)))
  · rw [hs, q4, q3, q2, q1, q0, s3, s2, s1, s0]
    fin_cases x <;> rfl
  · refine rstep_of rc _ (fun i => rol64 (lanesAt L3 m.s l i ^^^ thetaD (cOf m) ⟨i.val % 5, Nat.mod_lt _ (by decide)⟩ l)
      (KeccakP1600.Ref.rhoOffsets.getD i.val 0)) _ (fun x y => ?_) (fun x y => ?_)
    · rw [BitVec.xor_assoc, ← h.c, ← h.c]
      fin_cases x <;> fin_cases y <;> rfl
    · rw [hs]
      exact roundS3_lane rc _ _ l x y

theorem constant_eq (i : Nat) (hi : i < 24) : roundConstants[i]? = some (KeccakP1600.Ref.roundConstants.getD i 0) := by
  have h : ∀ i : Fin 24, roundConstants[i.val]? = some (KeccakP1600.Ref.roundConstants.getD i.val 0) := by decide +kernel
  exact h ⟨i, hi⟩

/-- The second half of the loop. -/
theorem half_ok (m : M) (n : Nat) (hn : n + 2 ≤ 24) (h : Ready L2 m n) : ∃ m', (round2 m).bind round3 = some m' ∧ Ready L0 m' (n + 2) ∧
    ∀ l, lanesAt L0 m'.s l = run n 2 (lanesAt L2 m.s l) := by
  obtain ⟨m1, e1, r1, h1⟩ := round2_ok m n _ h (constant_eq n (by omega))
  obtain ⟨m2, e2, r2, h2⟩ := round3_ok m1 (n + 1) _ r1 (constant_eq (n + 1) (by omega))
  refine ⟨m2, by rw [e1, Option.bind_some, e2], r2, fun l => ?_⟩
  rw [h2, h1, KeccakP1600.Opt64.run_add n 1 1]
  rfl

theorem four_ok (m : M) (n : Nat) (hn : n + 4 ≤ 24) (h : Ready L0 m n) :
    ∃ m', (((round0 m).bind round1).bind fun m => (round2 m).bind round3) = some m' ∧ Ready L0 m' (n + 4) ∧
    ∀ l, lanesAt L0 m'.s l = run n 4 (lanesAt L0 m.s l) := by
  obtain ⟨m1, e1, r1, h1⟩ := round0_ok m n _ h (constant_eq n (by omega))
  obtain ⟨m2, e2, r2, h2⟩ := round1_ok m1 (n + 1) _ r1 (constant_eq (n + 1) (by omega))
  obtain ⟨m3, e3, r3, h3⟩ := half_ok m2 (n + 2) (by omega) r2
  refine ⟨m3, by rw [e1, Option.bind_some, e2, Option.bind_some, e3], r3, fun l => ?_⟩
  rw [h3, h2, h1, KeccakP1600.Opt64.run_add n 2 2, KeccakP1600.Opt64.run_add n 1 1]
  rfl

theorem roundLoop_0 (fuel r2 : Nat) (m : M) : roundLoop (fuel + 1) 0 r2 m =
    (((round0 m).bind round1).bind fun m => (round2 m).bind round3).bind fun m =>
      if XoodooArm.sub32 r2 4 ≠ 0 then roundLoop fuel 0 (XoodooArm.sub32 r2 4) m else some m := by
  rw [roundLoop, if_pos rfl]
  simp only [Option.bind_eq_bind, Option.bind_assoc]

theorem roundLoop_2 (fuel r2 : Nat) (m : M) : roundLoop (fuel + 1) 2 r2 m =
    ((round2 m).bind round3).bind fun m =>
      if XoodooArm.sub32 r2 4 ≠ 0 then roundLoop fuel 0 (XoodooArm.sub32 r2 4) m else some m := by
  rw [roundLoop, if_neg (by decide)]
  simp only [Option.bind_eq_bind, Option.bind_assoc, Option.bind_some]

theorem roundLoop_eq : ∀ (j fuel n : Nat) (m : M), j < fuel → n + 4 * (j + 1) ≤ 24 → Ready L0 m n →
    ∃ m', roundLoop fuel 0 (4 * (j + 1)) m = some m' ∧ ∀ l, lanesAt L0 m'.s l = run n (4 * (j + 1)) (lanesAt L0 m.s l) := by
  intro j
  induction j with
  | zero =>
    intro fuel n m hf hn h
    obtain ⟨fuel, rfl⟩ : ∃ f, fuel = f + 1 := ⟨fuel - 1, by omega⟩
    obtain ⟨m', e, _, hl⟩ := four_ok m n (by omega) h
    refine ⟨m', ?_, hl⟩
    rw [roundLoop_0, e, Option.bind_some]
    rfl
  | succ j ih =>
    intro fuel n m hf hn h
    obtain ⟨fuel, rfl⟩ : ∃ f, fuel = f + 1 := ⟨fuel - 1, by omega⟩
    obtain ⟨m1, e, r1, hl⟩ := four_ok m n (by omega) h
    obtain ⟨m2, e2, h2⟩ := ih fuel (n + 4) m1 (by omega) (by omega) r1
    refine ⟨m2, ?_, fun l => ?_⟩
    · rw [roundLoop_0, e, Option.bind_some, XoodooArm.sub32_eq (by omega) (by omega), show 4 * (j + 1 + 1) - 4 = 4 * (j + 1) by omega,
        if_pos (by omega), e2]
    · rw [h2, hl, show 4 * (j + 1 + 1) = 4 + 4 * (j + 1) by omega, KeccakP1600.Opt64.run_add n 4]

theorem six_ok (fuel : Nat) (m : M) (hf : 1 < fuel) (h : Ready L2 m 18) :
    ∃ m', roundLoop fuel 2 8 m = some m' ∧ ∀ l, lanesAt L0 m'.s l = run 18 6 (lanesAt L2 m.s l) := by
  obtain ⟨fuel, rfl⟩ : ∃ f, fuel = f + 1 := ⟨fuel - 1, by omega⟩
  obtain ⟨m1, e, r1, hl⟩ := half_ok m 18 (by omega) h
  obtain ⟨m2, e2, h2⟩ := roundLoop_eq 0 fuel 20 m1 (by omega) (by omega) r1
  refine ⟨m2, ?_, fun l => ?_⟩
  · rw [roundLoop_2, e, Option.bind_some]
    exact e2
  · rw [h2, hl, ← KeccakP1600.Opt64.run_add 18 2]

/-! ### Before the loop -/

theorem vld1x2_ok (d : Nat) (m : M) (a : Nat) (h : m.r3 = 32 * a) (ha : a < 12) :
    vld1x2 d m = some { (m.set d (m.s (2 * a))).set (d + 1) (m.s (2 * a + 1)) with r3 := 32 * a + 32 } := by
  unfold vld1x2
  rw [h, if_pos (by omega), show 32 * a / 16 = 2 * a by omega]

theorem prepTheta_ok (m : M) (n : Nat) (h1 : m.r1 = 8 * n) (hr : 64 ≤ m.room) :
    ∃ m', prepTheta m = some m' ∧ Ready L0 m' n ∧ m'.s = m.s := by
  obtain ⟨q, s, t, rm, r1, r3, r4, r6⟩ := m
  refine ⟨_, step (vld1x2_ok 0 _ 0 rfl (by decide)) (step (vld1x2_ok 2 _ 1 rfl (by decide)) (step (vld1x2_ok 4 _ 2 rfl (by decide))
    (step (mLd_ok 6 16 _ 6 rfl (by decide)) (step (mLd_ok 7 16 _ 7 rfl (by decide)) (step (mLd_ok 8 16 _ 8 rfl (by decide))
    (step (mLd_ok 9 16 _ 9 rfl (by decide)) (step (mLd_ok 5 16 _ 10 rfl (by decide)) (step (mLd_ok 6 16 _ 11 rfl (by decide))
    (step (mLd_ok 7 16 _ 12 rfl (by decide)) (step (mLd_ok 8 16 _ 13 rfl (by decide)) (step (mLd_ok 9 16 _ 14 rfl (by decide))
    (step (mLd_ok 5 16 _ 15 rfl (by decide)) (step (mLd_ok 6 16 _ 16 rfl (by decide)) (step (mLd_ok 7 16 _ 17 rfl (by decide))
    (step (mLd_ok 8 16 _ 18 rfl (by decide)) (step (mLd_ok 9 16 _ 19 rfl (by decide)) (step (mLd_ok 5 16 _ 20 rfl (by decide))
    (step (mLd_ok 6 16 _ 21 rfl (by decide)) (step (mLd_ok 7 16 _ 22 rfl (by decide)) (step (mLd_ok 8 16 _ 23 rfl (by decide))
    (step (mLd_ok 9 16 _ 24 rfl (by decide)) rfl))))))))))))))))))))), ?_⟩
  refine ⟨⟨rfl, h1, hr, fun x l => ?_⟩, rfl⟩
  fin_cases x <;> rfl

theorem prepTheta6_ok (m : M) (n : Nat) (h1 : m.r1 = 8 * n) (hr : 64 ≤ m.room) :
    Ready L2 (prepTheta6 m) n ∧ ∀ l, lanesAt L2 (prepTheta6 m).s l = lanesAt L0 m.s l := by
  obtain ⟨q, s, t, rm, r1, r3, r4, r6⟩ := m
  have hs : ∀ l, lanesAt L2 (prepTheta6 ⟨q, s, t, rm, r1, r3, r4, r6⟩).s l = lanesAt L0 s l := by
    intro l
    funext i
    fin_cases i <;> rfl
  refine ⟨⟨rfl, h1, hr, fun x l => ?_⟩, hs⟩
  rw [hs]
  fin_cases x
  · show s 0 l ^^^ s 20 l ^^^ s 5 l ^^^ s 15 l ^^^ s 10 l = s 0 l ^^^ s 5 l ^^^ s 10 l ^^^ s 15 l ^^^ s 20 l
    ac_rfl
  · show s 1 l ^^^ s 16 l ^^^ s 11 l ^^^ s 6 l ^^^ s 21 l = s 1 l ^^^ s 6 l ^^^ s 11 l ^^^ s 16 l ^^^ s 21 l
    ac_rfl
  · show s 2 l ^^^ s 7 l ^^^ s 22 l ^^^ s 12 l ^^^ s 17 l = s 2 l ^^^ s 7 l ^^^ s 12 l ^^^ s 17 l ^^^ s 22 l
    ac_rfl
  · show s 3 l ^^^ s 23 l ^^^ s 18 l ^^^ s 8 l ^^^ s 13 l = s 3 l ^^^ s 8 l ^^^ s 13 l ^^^ s 18 l ^^^ s 23 l
    ac_rfl
  · show s 4 l ^^^ s 14 l ^^^ s 9 l ^^^ s 24 l ^^^ s 19 l = s 4 l ^^^ s 9 l ^^^ s 14 l ^^^ s 19 l ^^^ s 24 l
    ac_rfl

/-! ### The permutations -/

open Simd (view wd)

theorem view_memOf (st : Bytes) (l : Fin 2) : view 2 st l.val = bytesOfLanes (lanesAt L0 (memOf st) l) := by
  rw [Simd.view_eq]
  rfl

theorem length_bytesOf (s : Nat → Q) : (bytesOf s).length = 400 := by simp [bytesOf]

theorem view_bytesOf (s : Nat → Q) (l : Fin 2) : view 2 (bytesOf s) l.val = bytesOfLanes (lanesAt L0 s l) := by
  apply Simd.bytes_ext (by rw [Simd.length_view, KeccakP1600.length_bytesOfLanes])
  intro j hj
  rw [Simd.length_view] at hj
  have hl := l.isLt
  rw [Simd.getD_view _ _ _ _ hj, Simd.getD_bytesOfLanes _ _ hj]
  have hp : Simd.pos 2 l.val j < 400 := by unfold Simd.pos; omega
  rw [List.getD_eq_getElem?_getD, bytesOf, List.getElem?_map, List.getElem?_range hp, Option.map_some, Option.getD_some]
  have e1 : Simd.pos 2 l.val j / 16 = j / 8 := by unfold Simd.pos; omega
  have e2 : Simd.pos 2 l.val j % 8 = j % 8 := by unfold Simd.pos; omega
  have e3 : (if Simd.pos 2 l.val j % 16 < 8 then 0 else 1) = l := by
    unfold Simd.pos
    fin_cases l
    · rw [if_pos (by simp; omega)]; rfl
    · rw [if_neg (by simp; omega)]; rfl
  rw [e1, e2, e3]
  exact Simd.getD_bytesOfWord _ _ (by omega)

theorem roomOf_ok (sp : Nat) (h8 : sp % 8 = 0) (h : 72 ≤ sp) : ∃ room, roomOf sp = some room ∧ 64 ≤ room := by
  unfold roomOf
  refine ⟨sp - (sp - (4 * 2 * 8 + 8) + 8) / 16 * 16, ?_, by omega⟩
  exact if_pos (by omega)

theorem result_ok {n : Nat} {st : Bytes} {s : Nat → Q} (h : ∀ l, lanesAt L0 s l = run (24 - n) n (lanesAt L0 (memOf st) l)) :
    (bytesOf s).length = 400 ∧ ∀ k < 2, view 2 (bytesOf s) k = KeccakP1600.Ref.permuteNrounds n (view 2 st k) := by
  refine ⟨length_bytesOf s, fun k hk => ?_⟩
  rw [view_bytesOf s ⟨k, hk⟩, view_memOf st ⟨k, hk⟩, h]
  show _ = bytesOfLanes (KeccakP1600.Ref.onWords _ _ (lanesOfBytes (bytesOfLanes _)) n)
  rw [KeccakP1600.lanesOfBytes_bytesOfLanes]; rfl

theorem permute_ok (J : Junk) (h8 : J.sp % 8 = 0) (hsp : 72 ≤ J.sp) (st : Bytes) (j : Nat) (hj : 4 * (j + 1) ≤ 24) :
    ∃ st', permute J st (8 * (24 - 4 * (j + 1))) (4 * (j + 1)) = some st' ∧ st'.length = 400 ∧
      ∀ k < 2, view 2 st' k = KeccakP1600.Ref.permuteNrounds (4 * (j + 1)) (view 2 st k) := by
  obtain ⟨room, hr, hr2⟩ := roomOf_ok J.sp h8 hsp
  obtain ⟨m, e1, rdy, hs⟩ := prepTheta_ok ⟨J.q, memOf st, J.t, room, 8 * (24 - 4 * (j + 1)), 0, J.r4, J.r6⟩ _ rfl hr2
  obtain ⟨m', e2, h2⟩ := roundLoop_eq j (2 ^ 32) _ m (by omega) (by omega) rdy
  refine ⟨bytesOf m'.s, ?_, result_ok fun l => ?_⟩
  · unfold permute
    simp only [Option.bind_eq_bind]
    rw [hr, Option.bind_some, e1, Option.bind_some, e2, Option.bind_some]
  · rw [h2, hs]

theorem permute6_ok (J : Junk) (h8 : J.sp % 8 = 0) (hsp : 72 ≤ J.sp) (st : Bytes) :
    ∃ st', permute6 J st = some st' ∧ st'.length = 400 ∧ ∀ k < 2, view 2 st' k = KeccakP1600.Ref.permuteNrounds 6 (view 2 st k) := by
  obtain ⟨room, hr, hr2⟩ := roomOf_ok J.sp h8 hsp
  obtain ⟨rdy, hs⟩ := prepTheta6_ok ⟨J.q, memOf st, J.t, room, 144, 0, J.r4, J.r6⟩ 18 rfl hr2
  obtain ⟨m', e2, h2⟩ := six_ok (2 ^ 32) _ (by omega) rdy
  refine ⟨bytesOf m'.s, ?_, result_ok fun l => ?_⟩
  · unfold permute6
    simp only [Option.bind_eq_bind]
    rw [hr, Option.bind_some, e2, Option.bind_some]
  · rw [h2, hs]

theorem permuteAll_ok (J : Junk) (h8 : J.sp % 8 = 0) (hsp : 72 ≤ J.sp) (p : PlSnPFallback.Perm) (st : Bytes) :
    ∃ st', permuteAll J p st = some st' ∧ st'.length = 400 ∧ ∀ k < 2, view 2 st' k = PlSnPFallback.keccak p (view 2 st k) := by
  cases p
  · exact permute_ok J h8 hsp st 5 (by omega)
  · exact permute_ok J h8 hsp st 2 (by omega)
  · exact permute6_ok J h8 hsp st
  · exact permute_ok J h8 hsp st 0 (by omega)

end Times2Neon
