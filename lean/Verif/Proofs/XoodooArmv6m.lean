import Verif.Model.XoodooArmv6m
import Verif.Proofs.XoodooArmFull

/-!
# The rounds of the ARMv6-M assembly of Xoodoo
-/

namespace XoodooArm6

open Xoodoo (Lane Lanes bytesOfLanes)
open KeccakP1600 (loopFrom)
open XoodooArm (mk mk_eta mk_congr eff ror_eq rol_xor rol_rol theta_mk rhoWest_mk iota_mk chi_mk chi3 rhoEast_mk sub32 add32)

theorem store_eq (m : M) : store m = mk (m.r 3) (m.r 8) (m.r 9) m.s (m.r 10) (m.r 11) (m.r 12) (m.r 14) (m.r 4) (m.r 5) (m.r 6) (m.r 7) :=
  mk_eta _

/-- The effect of a column as it is computed. -/
def E (p : Lane) : Lane := (p.rotateRight 23 ^^^ p).rotateRight 27

theorem E_eq (p : Lane) : E p = eff p := by
  rw [E, eff, ror_eq _ _ (by omega), ror_eq _ _ (by omega)]
  simp only [Nat.reduceSub, Nat.reduceMod, rol_xor, rol_rol, Nat.reduceAdd]
  ac_rfl

set_option maxRecDepth 20000 in
theorem theta_run (m : M) : store (mTheta m) =
    mk (m.r 3 ^^^ E (m.r 14 ^^^ m.r 7 ^^^ m.s)) (m.r 8 ^^^ E (m.r 10 ^^^ m.r 4 ^^^ m.r 3)) (m.r 9 ^^^ E (m.r 11 ^^^ m.r 5 ^^^ m.r 8))
      (m.s ^^^ E (m.r 12 ^^^ m.r 6 ^^^ m.r 9)) (m.r 10 ^^^ E (m.r 14 ^^^ m.r 7 ^^^ m.s)) (m.r 11 ^^^ E (m.r 10 ^^^ m.r 4 ^^^ m.r 3))
      (m.r 12 ^^^ E (m.r 11 ^^^ m.r 5 ^^^ m.r 8)) (m.r 14 ^^^ E (m.r 12 ^^^ m.r 6 ^^^ m.r 9)) (m.r 4 ^^^ E (m.r 14 ^^^ m.r 7 ^^^ m.s))
      (m.r 5 ^^^ E (m.r 10 ^^^ m.r 4 ^^^ m.r 3)) (m.r 6 ^^^ E (m.r 11 ^^^ m.r 5 ^^^ m.r 8)) (m.r 7 ^^^ E (m.r 12 ^^^ m.r 6 ^^^ m.r 9)) := by
  funext i
  fin_cases i <;> rfl

theorem store_theta (m : M) : store (mTheta m) = Xoodoo.Ref.theta (store m) := by
  have h : ∀ a b c : Lane, E (b ^^^ c ^^^ a) = eff (a ^^^ b ^^^ c) := fun a b c => by rw [E_eq]; congr 1; ac_rfl
  rw [theta_run, store_eq, theta_mk]
  simp only [h]

set_option maxRecDepth 20000 in
theorem store_rhoWest (m : M) : store (mRhoWest m) = Xoodoo.Ref.rhoWest (store m) := by
  have e : ∀ a : Lane, a.rotateLeft 11 = a.rotateRight 21 := fun a => (ror_eq a 21 (by omega)).symm
  rw [store_eq m, rhoWest_mk]
  simp only [e]
  funext i
  fin_cases i <;> rfl

theorem store_iota (c : Lane) (m : M) : store (mIota c m) = Xoodoo.Ref.iota c (store m) := by
  rw [store_eq m, iota_mk]
  funext i
  fin_cases i <;> rfl

/-- The three lanes of a column as they are computed. -/
def c0 (a b c : Lane) : Lane := a ^^^ (c &&& ~~~ b)
/-- See `c0`. -/
def c1 (a b c : Lane) : Lane := b ^^^ (c0 a b c &&& ~~~ c)
/-- See `c0`. -/
def c2 (a b c : Lane) : Lane := c ^^^ (c1 a b c &&& ~~~ c0 a b c)

set_option maxRecDepth 20000 in
theorem chi_run (m : M) : store (mChi m) =
    mk (c0 (m.r 3) (m.r 10) (m.r 4)) (c0 (m.r 8) (m.r 11) (m.r 5)) (c0 (m.r 9) (m.r 12) (m.r 6)) (c0 m.s (m.r 14) (m.r 7))
      (c1 (m.r 3) (m.r 10) (m.r 4)) (c1 (m.r 8) (m.r 11) (m.r 5)) (c1 (m.r 9) (m.r 12) (m.r 6)) (c1 m.s (m.r 14) (m.r 7))
      (c2 (m.r 3) (m.r 10) (m.r 4)) (c2 (m.r 8) (m.r 11) (m.r 5)) (c2 (m.r 9) (m.r 12) (m.r 6)) (c2 m.s (m.r 14) (m.r 7)) := by
  funext i
  fin_cases i <;> rfl

theorem store_chi (m : M) : store (mChi m) = Xoodoo.Ref.chi (store m) := by
  rw [chi_run, store_eq, chi_mk]
  apply mk_congr <;> first
    | exact (chi3 _ _ _).1
    | exact (chi3 _ _ _).2.1
    | exact (chi3 _ _ _).2.2

set_option maxRecDepth 20000 in
theorem store_rhoEast (m : M) : store (mRhoEast m) = Xoodoo.Ref.rhoEast (store m) := by
  have e : ∀ a : Lane, a.rotateLeft 1 = a.rotateRight 31 := fun a => (ror_eq a 31 (by omega)).symm
  have e8 : ∀ a : Lane, a.rotateLeft 8 = a.rotateRight 24 := fun a => (ror_eq a 24 (by omega)).symm
  rw [store_eq m, rhoEast_mk]
  simp only [e, e8]
  funext i
  fin_cases i <;> rfl

theorem tableWord_four (t : List Lane) (i : Nat) : tableWord t (4 * i) = t[i]? := by
  rw [tableWord, if_pos (by omega), show 4 * i / 4 = i by omega]

/-- The pointer to the constants is only changed in iota. -/
theorem mRound_eq (t : List Lane) (m : M) (i : Nat) (c : Lane) (h : m.rc = 4 * i) (hc : t[i]? = some c) (hi : i < 2 ^ 29) :
    ∃ m', mRound t m = some m' ∧ m'.rc = 4 * (i + 1) ∧ store m' = Xoodoo.Ref.round c (store m) := by
  have e1 : (mRhoWest (mTheta m)).rc = m.rc := rfl
  refine ⟨mRhoEast (mChi (mIota c (mRhoWest (mTheta m)))), ?_, ?_, ?_⟩
  · rw [mRound, e1, h, tableWord_four, hc]
    rfl
  · have e2 : (mRhoEast (mChi (mIota c (mRhoWest (mTheta m))))).rc = add32 m.rc 4 := rfl
    rw [e2, h, add32]
    omega
  · rw [store_rhoEast, store_chi, store_iota, store_rhoWest, store_theta]
    rfl

/-- The loop from the constant `i` on, in a table of `k` constants with a 0 after them. -/
theorem roundsLoop_eq (t : List Lane) (k : Nat) (hk : k < 2 ^ 29) (h0 : t[k]? = some 0)
    (ht : ∀ i < k, ∃ c, t[i]? = some c ∧ c ≠ 0) :
    ∀ (n fuel i : Nat) (m : M), n < fuel → i + (n + 1) = k → m.rc = 4 * i → ∃ m', roundsLoop t fuel m = some m' ∧
      store m' = loopFrom (fun i a => Xoodoo.Ref.round (t.getD i 0) a) i (n + 1) (store m) := by
  intro n
  induction n with
  | zero =>
    intro fuel i m hf hi hm
    obtain ⟨fuel, rfl⟩ : ∃ f, fuel = f + 1 := ⟨fuel - 1, by omega⟩
    obtain ⟨c, e, _⟩ := ht i (by omega)
    obtain ⟨m', e1, e2, e3⟩ := mRound_eq t m i c hm e (by omega)
    refine ⟨m', ?_, ?_⟩
    · rw [roundsLoop, e1, Option.bind_eq_bind, Option.bind_some, e2, tableWord_four, hi, h0]
      rfl
    · rw [loopFrom, loopFrom, e3, List.getD_eq_getElem?_getD, e]
      rfl
  | succ n ih =>
    intro fuel i m hf hi hm
    obtain ⟨fuel, rfl⟩ : ∃ f, fuel = f + 1 := ⟨fuel - 1, by omega⟩
    obtain ⟨c, e, _⟩ := ht i (by omega)
    obtain ⟨d, ed, hd⟩ := ht (i + 1) (by omega)
    obtain ⟨m1, e1, e2, e3⟩ := mRound_eq t m i c hm e (by omega)
    obtain ⟨m', i1, i2⟩ := ih fuel (i + 1) m1 (by omega) (by omega) e2
    refine ⟨m', ?_, ?_⟩
    · rw [roundsLoop, e1, Option.bind_eq_bind, Option.bind_some, e2, tableWord_four, ed, Option.bind_eq_bind, Option.bind_some, if_neg hd, i1]
    · have hc : t.getD i 0 = c := by rw [List.getD_eq_getElem?_getD, e]; rfl
      rw [i2, e3, ← hc]
      rfl

theorem nz12 : ∀ i < 12, ∃ c, RC12[i]? = some c ∧ c ≠ 0 := by
  have h : ∀ i : Fin 12, RC12[i.val]? = some (RC12.getD i.val 0) ∧ RC12.getD i.val 0 ≠ 0 := by decide
  exact fun i hi => ⟨_, h ⟨i, hi⟩⟩

theorem nz6 : ∀ i < 6, ∃ c, RC6[i]? = some c ∧ c ≠ 0 := by
  have h : ∀ i : Fin 6, RC6[i.val]? = some (RC6.getD i.val 0) ∧ RC6.getD i.val 0 ≠ 0 := by decide
  exact fun i hi => ⟨_, h ⟨i, hi⟩⟩

theorem loop_congr {σ : Type} (f g : Nat → σ → σ) : ∀ (n i : Nat) (a : σ), (∀ j, i ≤ j → j < i + n → f j = g j) →
    loopFrom f i n a = loopFrom g i n a := by
  intro n
  induction n with
  | zero => intro i a _; rfl
  | succ n ih =>
    intro i a h
    rw [loopFrom, loopFrom, h i (Nat.le_refl _) (by omega), ih (i + 1) _ fun j h1 h2 => h j (by omega) (by omega)]

theorem loop_shift {σ : Type} (f g : Nat → σ → σ) (d : Nat) : ∀ (n i : Nat) (a : σ), (∀ j, i ≤ j → j < i + n → f j = g (j + d)) →
    loopFrom f i n a = loopFrom g (i + d) n a := by
  intro n
  induction n with
  | zero => intro i a _; rfl
  | succ n ih =>
    intro i a h
    rw [loopFrom, loopFrom, h i (Nat.le_refl _) (by omega), ih (i + 1) _ fun j h1 h2 => h j (by omega) (by omega),
      Nat.add_right_comm]

/-- The last `nr` of the 12 rounds. -/
theorem rounds12_eq (nr : Nat) (h1 : 1 ≤ nr) (h2 : nr ≤ 12) (m : M) (hm : m.rc = 4 * (12 - nr)) (fuel : Nat) (hf : 12 < fuel) :
    ∃ m', roundsLoop RC12 fuel m = some m' ∧ store m' = Xoodoo.Ref.onWords nr (store m) := by
  obtain ⟨m', e1, e2⟩ := roundsLoop_eq RC12 12 (by decide) rfl nz12 (nr - 1) fuel (12 - nr) m (by omega) (by omega) hm
  refine ⟨m', e1, ?_⟩
  rw [e2, Xoodoo.Ref.onWords, if_pos h2, show nr - 1 + 1 = nr by omega]
  apply loop_congr
  intro j _ hj
  have h : ∀ i : Fin 12, RC12.getD i.val 0 = Xoodoo.RC.getD i.val 0 := by decide
  rw [h ⟨j, by omega⟩]

theorem rounds6_eq (m : M) (hm : m.rc = 0) (fuel : Nat) (hf : 12 < fuel) :
    ∃ m', roundsLoop RC6 fuel m = some m' ∧ store m' = Xoodoo.Ref.onWords 6 (store m) := by
  obtain ⟨m', e1, e2⟩ := roundsLoop_eq RC6 6 (by decide) rfl nz6 5 fuel 0 m (by omega) (by omega) hm
  refine ⟨m', e1, ?_⟩
  rw [e2, Xoodoo.Ref.onWords, if_pos (by decide)]
  refine loop_shift _ _ 6 _ _ _ fun j _ hj => ?_
  have h : ∀ i : Fin 6, RC6.getD i.val 0 = Xoodoo.RC.getD (i.val + 6) 0 := by decide
  rw [h ⟨j, by omega⟩]

theorem store_load (A : Lanes) (m : M) : store (load A m) = A := by
  funext i
  fin_cases i <;> rfl

theorem permuteNrounds_eq (m : M) (A : Lanes) (nr : Nat) (h1 : 1 ≤ nr) (h2 : nr ≤ 12) :
    permuteNrounds m A nr = some (Xoodoo.Ref.onWords nr A) := by
  have hrc : (load A { m with rc := sub32 48 (nr * 4 % 2 ^ 32) }).rc = 4 * (12 - nr) := by
    show sub32 48 (nr * 4 % 2 ^ 32) = _
    unfold sub32
    omega
  obtain ⟨m', e1, e2⟩ := rounds12_eq nr h1 h2 _ hrc (2 ^ 32) (by decide)
  rw [permuteNrounds, e1, Option.bind_eq_bind, Option.bind_some, e2, store_load]

theorem permute12Asm_eq (m : M) : ∃ m', permute12Asm m = some m' ∧ store m' = Xoodoo.Ref.onWords 12 (store m) :=
  rounds12_eq 12 (by decide) (by decide) { m with rc := 0 } rfl (2 ^ 32) (by decide)

/-- Without rounds, a round with the constant 0 is done, and the test of the next constant reads after the table. -/
theorem permute_zero (m : M) (A : Lanes) : permuteNrounds m A 0 = none := by
  obtain ⟨m', e1, e2, _⟩ := mRound_eq RC12 (load A { m with rc := sub32 48 (0 * 4 % 2 ^ 32) }) 12 0 (by
    show sub32 48 (0 * 4 % 2 ^ 32) = _
    decide) rfl (by decide)
  have h : ∀ fuel, 0 < fuel → roundsLoop RC12 fuel (load A { m with rc := sub32 48 (0 * 4 % 2 ^ 32) }) = none := fun fuel hf => by
    obtain ⟨fuel, rfl⟩ : ∃ f, fuel = f + 1 := ⟨fuel - 1, by omega⟩
    rw [roundsLoop, e1, Option.bind_eq_bind, Option.bind_some, e2, tableWord_four]
    rfl
  rw [permuteNrounds, h _ (by decide)]
  rfl

end XoodooArm6
