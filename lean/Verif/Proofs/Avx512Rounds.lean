import Verif.Model.KeccakAvx512
import Verif.Proofs.SimdOps

/-!
The rounds of the AVX-512 implementations, in each lane.
-/

namespace Avx512

open KeccakP1600 (Lane Lanes rstep lane)
open KeccakP1600.Opt64 (run run_add)
open Simd (V C5 Vec lanesOf optOf parOf)

variable {α : Type}

/-- The operations on registers are the operations of the 64-bit implementation in the lane `f`. -/
structure OpsOk (O : Ops α) (f : α → Lane) : Prop where
  xor : ∀ a b, f (O.xor a b) = f a ^^^ f b
  xor3 : ∀ a b c, f (O.xor3 a b c) = f a ^^^ f b ^^^ f c
  rol : ∀ a o, 0 < o → o < 64 → f (O.rol a o) = KeccakP1600.Opt64.rol64 (f a) o
  chi : ∀ a b c, f (O.chi a b c) = f a ^^^ (~~~ f b &&& f c)
  const : ∀ x, f (O.const x) = x

/-- The variables in the places of the lanes after the first round, ... -/
def ren1 (s : V α) : V α :=
  ⟨s.ba, s.ge, s.ki, s.mo, s.su, s.ka, s.me, s.si, s.bo, s.gu, s.sa, s.be, s.gi, s.ko, s.mu, s.ga, s.ke, s.mi, s.so, s.bu,
   s.ma, s.se, s.bi, s.go, s.ku⟩

/-- ... after the second round, ... -/
def ren2 (s : V α) : V α :=
  ⟨s.ba, s.me, s.gi, s.so, s.ku, s.sa, s.ke, s.bi, s.mo, s.gu, s.ma, s.ge, s.si, s.ko, s.bu, s.ka, s.be, s.mi, s.go, s.su,
   s.ga, s.se, s.ki, s.bo, s.mu⟩

/-- ... and after the third round. -/
def ren3 (s : V α) : V α :=
  ⟨s.ba, s.ke, s.si, s.go, s.mu, s.ma, s.be, s.ki, s.so, s.gu, s.ga, s.me, s.bi, s.ko, s.su, s.sa, s.ge, s.mi, s.bo, s.ku,
   s.ka, s.se, s.gi, s.mo, s.bu⟩

section

variable {O : Ops α} {f : α → Lane}

/-- The effect of theta computed from parities. -/
def dPar (c : KeccakP1600.Opt64.C5) : KeccakP1600.Opt64.C5 :=
  ⟨c.u ^^^ KeccakP1600.Opt64.rol64 c.e 1, c.a ^^^ KeccakP1600.Opt64.rol64 c.i 1, c.e ^^^ KeccakP1600.Opt64.rol64 c.o 1,
   c.i ^^^ KeccakP1600.Opt64.rol64 c.u 1, c.o ^^^ KeccakP1600.Opt64.rol64 c.a 1⟩

/-- The parities do not depend on the order of the rows. -/
theorem par_ren1 (s : V α) : KeccakP1600.Opt64.prepareTheta (optOf f (ren1 s)) = KeccakP1600.Opt64.prepareTheta (optOf f s) := by
  simp only [KeccakP1600.Opt64.prepareTheta, optOf, ren1, KeccakP1600.Opt64.C5.mk.injEq]
  refine ⟨?_, ?_, ?_, ?_, ?_⟩ <;> ac_rfl

theorem par_ren2 (s : V α) : KeccakP1600.Opt64.prepareTheta (optOf f (ren2 s)) = KeccakP1600.Opt64.prepareTheta (optOf f s) := by
  simp only [KeccakP1600.Opt64.prepareTheta, optOf, ren2, KeccakP1600.Opt64.C5.mk.injEq]
  refine ⟨?_, ?_, ?_, ?_, ?_⟩ <;> ac_rfl

theorem par_ren3 (s : V α) : KeccakP1600.Opt64.prepareTheta (optOf f (ren3 s)) = KeccakP1600.Opt64.prepareTheta (optOf f s) := by
  simp only [KeccakP1600.Opt64.prepareTheta, optOf, ren3, KeccakP1600.Opt64.C5.mk.injEq]
  refine ⟨?_, ?_, ?_, ?_, ?_⟩ <;> ac_rfl

theorem theta_ok (h : OpsOk O f) (s : V α) : parOf f (theta O s) = dPar (KeccakP1600.Opt64.prepareTheta (optOf f s)) := by
  have hp : ∀ a b c d e, f (O.xor5 a b c d e) = f a ^^^ (f b ^^^ (f c ^^^ (f d ^^^ f e))) := by
    intro a b c d e
    simp only [Ops.xor5, h.xor3, BitVec.xor_assoc]
  simp only [theta, parOf, dPar, h.xor, h.rol _ 1 (by decide) (by decide), hp, KeccakP1600.Opt64.prepareTheta, optOf,
    KeccakP1600.Opt64.C5.mk.injEq]
  simp only [BitVec.xor_assoc]
  refine ⟨?_, ?_, ?_, ?_, ?_⟩ <;> ac_rfl

/-- A round of the 64-bit implementation, from the effect of theta. -/
theorem rstep_of (rc : Lane) (A B : V α)
    (h : optOf f B = (KeccakP1600.Opt64.roundPrep rc (optOf f A) (KeccakP1600.Opt64.prepareTheta (optOf f A))).2.1) :
    lanesOf f B = rstep rc (lanesOf f A) := by
  have h2 := (KeccakP1600.Opt64.prepRound ⟨false, .full⟩ rc (optOf f A)).1
  show KeccakP1600.Opt64.copyToState (optOf f B) = _
  rw [h]; exact h2

/-- One of the four rounds: `A` are the variables in the places of the lanes before the round, `B` after it; the terms of `hB` are those of the
64-bit implementation. -/
theorem step_eq (h : OpsOk O f) (s B A : V α) (rc : Lane) (hp : KeccakP1600.Opt64.prepareTheta (optOf f A) = KeccakP1600.Opt64.prepareTheta (optOf f s))
    (hB : ∀ D : C5 α, theta O s = D →
      B = (let y0 := trpcIota0 O D ⟨A.ba, A.ge, A.ki, A.mo, A.su⟩ (O.const rc)
           let y1 := trpc1 O D ⟨A.ka, A.me, A.si, A.bo, A.gu⟩
           let y2 := trpc2 O D ⟨A.sa, A.be, A.gi, A.ko, A.mu⟩
           let y3 := trpc3 O D ⟨A.ga, A.ke, A.mi, A.so, A.bu⟩
           let y4 := trpc4 O D ⟨A.ma, A.se, A.bi, A.go, A.ku⟩
           ⟨y0.a, y0.e, y0.i, y0.o, y0.u, y1.a, y1.e, y1.i, y1.o, y1.u, y2.a, y2.e, y2.i, y2.o, y2.u, y3.a, y3.e, y3.i, y3.o, y3.u,
            y4.a, y4.e, y4.i, y4.o, y4.u⟩)) :
    lanesOf f B = rstep rc (lanesOf f A) := by
  apply rstep_of
  have hD := theta_ok h s
  rw [← hp] at hD
  generalize hc : KeccakP1600.Opt64.prepareTheta (optOf f A) = c at hD
  rw [hB _ rfl]
  generalize theta O s = D at hD
  simp only [parOf, dPar, KeccakP1600.Opt64.C5.mk.injEq] at hD
  obtain ⟨h1, h2, h3, h4, h5⟩ := hD
  have hr : ∀ a o, (decide (0 < o ∧ o < 64)) = true → f (O.rol a o) = KeccakP1600.Opt64.rol64 (f a) o := by
    intro a o ho; simp at ho; exact h.rol a o ho.1 ho.2
  simp (discharger := decide) only [trpcIota0, trpc1, trpc2, trpc3, trpc4, thetaRho, chi5, optOf, KeccakP1600.Opt64.roundPrep, h.xor, h.chi, hr,
    h.const, h1, h2, h3, h4, h5, ne_eq, not_true_eq_false, if_false, if_true, OfNat.ofNat_ne_zero, not_false_eq_true]

theorem step0_ok (h : OpsOk O f) (rc : Lane) (s : V α) : lanesOf f (ren1 (step0 O rc s)) = rstep rc (lanesOf f s) :=
  step_eq h s _ s rc rfl fun D hD => by subst hD; rfl

theorem step1_ok (h : OpsOk O f) (rc : Lane) (s : V α) : lanesOf f (ren2 (step1 O rc s)) = rstep rc (lanesOf f (ren1 s)) :=
  step_eq h s _ (ren1 s) rc (par_ren1 s) fun D hD => by subst hD; rfl

theorem step2_ok (h : OpsOk O f) (rc : Lane) (s : V α) : lanesOf f (ren3 (step2 O rc s)) = rstep rc (lanesOf f (ren2 s)) :=
  step_eq h s _ (ren2 s) rc (par_ren2 s) fun D hD => by subst hD; rfl

theorem step3_ok (h : OpsOk O f) (rc : Lane) (s : V α) : lanesOf f (step3 O rc s) = rstep rc (lanesOf f (ren3 s)) :=
  step_eq h s _ (ren3 s) rc (par_ren3 s) fun D hD => by subst hD; rfl

theorem roundConstants_eq : roundConstants = KeccakP1600.Ref.roundConstants := by decide

theorem twoRounds_ok (h : OpsOk O f) (i : Nat) (s : V α) : lanesOf f (twoRounds O i s) = run i 2 (lanesOf f (ren2 s)) := by
  unfold twoRounds
  rw [step3_ok h, step2_ok h, roundConstants_eq]; rfl

theorem fourRounds_ok (h : OpsOk O f) (i : Nat) (s : V α) : lanesOf f (fourRounds O i s) = run i 4 (lanesOf f s) := by
  unfold fourRounds
  rw [step3_ok h, step2_ok h, step1_ok h, step0_ok h, roundConstants_eq]; rfl

theorem doWhile_ok (step : Nat) (body : Nat → V α → V α) (hb : ∀ i s, lanesOf f (body i s) = run i step (lanesOf f s)) (hstep : 0 < step) :
    ∀ (m fuel i : Nat) (s : V α), i + step * (m + 1) = 24 → m < fuel →
      lanesOf f (doWhile step body fuel i s) = run i (step * (m + 1)) (lanesOf f s) := by
  intro m
  induction m with
  | zero =>
    intro fuel i s hi hf
    obtain ⟨fuel, rfl⟩ : ∃ k, fuel = k + 1 := ⟨fuel - 1, by omega⟩
    rw [doWhile, if_neg (by omega), hb, Nat.zero_add, Nat.mul_one]
  | succ m ih =>
    intro fuel i s hi hf
    obtain ⟨fuel, rfl⟩ : ∃ k, fuel = k + 1 := ⟨fuel - 1, by omega⟩
    rw [Nat.mul_succ] at hi
    have h1 : step * (m + 1) = step * m + step := Nat.mul_succ _ _
    rw [doWhile, if_pos (by omega), ih fuel (i + step) _ (by omega) (by omega), hb, Nat.mul_succ step (m + 1), Nat.add_comm (step * (m + 1)) step,
      run_add]

theorem three_ok (h : OpsOk O f) (i : Nat) (s : V α) :
    lanesOf f (fourRounds O (i + 8) (fourRounds O (i + 4) (fourRounds O i s))) = run i 12 (lanesOf f s) := by
  rw [fourRounds_ok h, fourRounds_ok h, fourRounds_ok h, show 12 = 4 + (4 + 4) from rfl, run_add, run_add]

theorem rounds12_ok (h : OpsOk O f) (unr : Unrolling) (s : V α) : lanesOf f (rounds12 O unr s) = run 12 12 (lanesOf f s) := by
  cases unr
  · exact three_ok h 12 s
  · exact doWhile_ok 4 _ (fourRounds_ok h) (by decide) 2 24 12 s rfl (by decide)
  · exact three_ok h 12 s

theorem rounds24_ok (h : OpsOk O f) (unr : Unrolling) (s : V α) : lanesOf f (rounds24 O unr s) = run 0 24 (lanesOf f s) := by
  cases unr
  · refine (three_ok h 12 _).trans ?_
    rw [three_ok h 0 s, show 24 = 12 + 12 from rfl, run_add]
  · exact doWhile_ok 4 _ (fourRounds_ok h) (by decide) 5 24 0 s rfl (by decide)
  · exact doWhile_ok 12 _ (three_ok h) (by decide) 1 24 0 s rfl (by decide)

theorem rounds6_ok (h : OpsOk O f) (s : V α) : lanesOf f (rounds6 O s) = run 18 6 (lanesOf f (ren2 s)) := by
  unfold rounds6
  rw [fourRounds_ok h, twoRounds_ok h, show 6 = 2 + 4 from rfl, run_add]

theorem rounds4_ok (h : OpsOk O f) (s : V α) : lanesOf f (rounds4 O s) = run 20 4 (lanesOf f s) := fourRounds_ok h 20 s

end

theorem ternary_xor {n : Nat} (a b c : Vec n) : ternarylogic a b c 0x96 = fun i => a i ^^^ b i ^^^ c i := by
  funext i
  unfold ternarylogic
  apply BitVec.eq_of_getLsbD_eq; intro j hj
  simp only [List.range_succ, List.range_zero, List.nil_append, List.cons_append, List.foldl]
  simp [Nat.testBit]
  generalize (a i).getLsbD j = x
  generalize (b i).getLsbD j = y
  generalize (c i).getLsbD j = z
  cases x <;> cases y <;> cases z <;> simp_all

theorem ternary_chi {n : Nat} (a b c : Vec n) : ternarylogic a b c 0xD2 = fun i => a i ^^^ (~~~ b i &&& c i) := by
  funext i
  unfold ternarylogic
  apply BitVec.eq_of_getLsbD_eq; intro j hj
  simp only [List.range_succ, List.range_zero, List.nil_append, List.cons_append, List.foldl]
  simp [Nat.testBit]
  generalize (a i).getLsbD j = x
  generalize (b i).getLsbD j = y
  generalize (c i).getLsbD j = z
  cases x <;> cases y <;> cases z <;> simp_all

theorem ops_ok {n : Nat} (l : Fin n) : OpsOk (ops n) (fun v => v l) where
  xor _ _ := rfl
  xor3 a b c := congrFun (ternary_xor a b c) l
  rol a o h0 h := Simd.rotateLeft_eq (a l) o h0 h
  chi a b c := congrFun (ternary_chi a b c) l
  const _ := rfl

end Avx512
