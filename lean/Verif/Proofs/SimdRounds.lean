import Verif.Model.SimdRounds
import Verif.Proofs.KeccakPOpt

/-!
The loops over the rounds of the SIMD implementations: when the round macros compute the rounds of the reference implementation
in each lane of the registers, so do the loops, for every unrolling.
-/

namespace Simd

open KeccakP1600 (Lane Lanes rstep lane)
open KeccakP1600.Opt64 (Unrolling run run_add)

variable {α : Type}

/-- A lane of the variables, as variables of the 64-bit implementation. -/
def optOf (f : α → Lane) (A : V α) : KeccakP1600.Opt64.V :=
  ⟨f A.ba, f A.be, f A.bi, f A.bo, f A.bu, f A.ga, f A.ge, f A.gi, f A.go, f A.gu, f A.ka, f A.ke, f A.ki, f A.ko, f A.ku, f A.ma, f A.me, f A.mi, f A.mo, f A.mu, f A.sa, f A.se, f A.si, f A.so, f A.su⟩

/-- A lane of the parities. -/
def parOf (f : α → Lane) (c : C5 α) : KeccakP1600.Opt64.C5 := ⟨f c.a, f c.e, f c.i, f c.o, f c.u⟩

/-- A lane of the variables, as a state. -/
def lanesOf (f : α → Lane) (A : V α) : Lanes := KeccakP1600.Opt64.copyToState (optOf f A)

theorem lanesOf_get (f : α → Lane) (A : V α) (i : Fin 25) : lanesOf f A i = f (A.get i.val) := by
  fin_cases i <;> rfl

/-- The macros compute the rounds of the reference implementation in the lane `f`. -/
structure Sound (R : Rounds α) (f : α → Lane) : Prop where
  prep : ∀ A, parOf f (R.prepareTheta A) = KeccakP1600.Opt64.prepareTheta (optOf f A)
  step : ∀ i A c, parOf f c = KeccakP1600.Opt64.prepareTheta (optOf f A) →
    lanesOf f (R.roundPrep i A c).2.1 = rstep (KeccakP1600.Ref.roundConstants.getD i 0) (lanesOf f A) ∧
      parOf f (R.roundPrep i A c).2.2 = KeccakP1600.Opt64.prepareTheta (optOf f (R.roundPrep i A c).2.1)
  last : ∀ i A c, (R.round i A c).2 = (R.roundPrep i A c).2.1

variable {R : Rounds α} {f : α → Lane}

/-- What the loops need to know. -/
structure Inv (f : α → Lane) (s : St α) (S : Lanes) : Prop where
  rep : lanesOf f s.A = S
  c : parOf f s.c = KeccakP1600.Opt64.prepareTheta (optOf f s.A)

theorem prep_inv (hR : Sound R f) (s : St α) : Inv f (prep R s) (lanesOf f s.A) := ⟨rfl, hR.prep _⟩

theorem AE_inv (hR : Sound R f) {s : St α} {S : Lanes} (h : Inv f s S) (i : Nat) :
    lanesOf f (AE R i s).E = run i 1 S ∧ parOf f (AE R i s).c = KeccakP1600.Opt64.prepareTheta (optOf f (AE R i s).E) := by
  have h1 := hR.step i s.A s.c h.c
  rw [h.rep] at h1
  exact h1

theorem u1_inv (hR : Sound R f) (i : Nat) {s : St α} {S : Lanes} (h : Inv f s S) :
    Inv f (copyAE (AE R i s)) (run i 1 S) := ⟨(AE_inv hR h i).1, (AE_inv hR h i).2⟩

theorem two_inv (hR : Sound R f) (i : Nat) {s : St α} {S : Lanes} (h : Inv f s S) : Inv f (two R i s) (run i 2 S) := by
  obtain ⟨h1, h2⟩ := AE_inv hR h i
  have h3 := hR.step (i + 1) (AE R i s).E (AE R i s).c h2
  rw [h1] at h3
  exact ⟨h3.1, h3.2⟩

theorem last_rep (hR : Sound R f) (i : Nat) {s : St α} {S : Lanes} (h : Inv f s S) :
    lanesOf f (lastTwo R i s).A = run i 2 S := by
  rw [← (two_inv hR i h).rep]
  unfold two EA lastTwo lastEA
  simp only [hR.last]

theorem forLoop_inv (step : Nat) (body : Nat → St α → St α) (hstep : 0 < step)
    (hb : ∀ i s S, Inv f s S → Inv f (body i s) (run i step S)) :
    ∀ (m fuel i : Nat) (s : St α) (S : Lanes), Inv f s S → i + step * m = 24 → m ≤ fuel →
      Inv f (forLoop step body fuel i s) (run i (step * m) S) := by
  intro m
  induction m with
  | zero =>
    intro fuel i s S h hi hf
    have hi : ¬ i < 24 := by omega
    cases fuel with
    | zero => exact h
    | succ fuel => rw [forLoop, if_neg hi]; exact h
  | succ m ih =>
    intro fuel i s S h hi hf
    obtain ⟨fuel, rfl⟩ : ∃ f, fuel = f + 1 := ⟨fuel - 1, by omega⟩
    rw [Nat.mul_succ] at hi ⊢
    have : i < 24 := by omega
    rw [forLoop, if_pos this, Nat.add_comm (step * m), run_add]
    exact ih fuel (i + step) _ _ (hb i s S h) (by omega) (by omega)

theorem u3_inv (hR : Sound R f) (i : Nat) {s : St α} {S : Lanes} (h : Inv f s S) :
    Inv f (copyAE <| AE R (i + 2) <| two R i s) (run i 3 S) := by
  rw [show 3 = 2 + 1 from rfl, run_add]
  exact u1_inv hR _ (two_inv hR _ h)

theorem u4_inv (hR : Sound R f) (i : Nat) {s : St α} {S : Lanes} (h : Inv f s S) :
    Inv f (two R (i + 2) <| two R i s) (run i 4 S) := by
  rw [show 4 = 2 + 2 from rfl, run_add]
  exact two_inv hR _ (two_inv hR _ h)

theorem u6_inv (hR : Sound R f) (i : Nat) {s : St α} {S : Lanes} (h : Inv f s S) :
    Inv f (two R (i + 4) <| two R (i + 2) <| two R i s) (run i 6 S) := by
  rw [show 6 = 2 + (2 + 2) from rfl, run_add, run_add]
  exact two_inv hR _ (two_inv hR _ (two_inv hR _ h))

theorem u12_inv (hR : Sound R f) (i : Nat) {s : St α} {S : Lanes} (h : Inv f s S) :
    Inv f (two R (i + 10) <| two R (i + 8) <| two R (i + 6) <| two R (i + 4) <| two R (i + 2) <| two R i s)
      (run i 12 S) := by
  rw [show 12 = 6 + 6 from rfl, run_add]
  exact u6_inv hR (i + 6) (u6_inv hR i h)

theorem last4 (hR : Sound R f) {s : St α} {S : Lanes} (h : Inv f s S) :
    lanesOf f (lastTwo R 22 (two R 20 s)).A = run 20 4 S := by
  rw [show 4 = 2 + 2 from rfl, run_add]
  exact last_rep hR 22 (two_inv hR 20 h)

theorem last6 (hR : Sound R f) {s : St α} {S : Lanes} (h : Inv f s S) :
    lanesOf f (lastTwo R 22 (two R 20 (two R 18 s))).A = run 18 6 S := by
  rw [show 6 = 2 + 4 from rfl, run_add]
  exact last4 hR (two_inv hR 18 h)

theorem last12 (hR : Sound R f) {s : St α} {S : Lanes} (h : Inv f s S) :
    lanesOf f (lastTwo R 22 <| two R 20 <| two R 18 <| two R 16 <| two R 14 <| two R 12 s).A = run 12 12 S := by
  rw [show 12 = 6 + 6 from rfl, run_add]
  exact last6 hR (u6_inv hR 12 h)

theorem rounds4_rep (hR : Sound R f) (unr : Unrolling) (s : St α) :
    lanesOf f (rounds4 R unr s).A = run 20 4 (lanesOf f s.A) := by
  have h := prep_inv hR s
  unfold rounds4
  cases unr
  · exact last4 hR h
  · exact last4 hR h
  · exact last4 hR h
  · exact last4 hR h
  · exact (forLoop_inv 2 _ (by decide) (fun i s S h => two_inv hR i h) 2 24 20 _ _ h rfl (by decide)).rep
  · exact (forLoop_inv 2 _ (by decide) (fun i s S h => two_inv hR i h) 2 24 20 _ _ h rfl (by decide)).rep
  · exact (forLoop_inv 1 _ (by decide) (fun i s S h => u1_inv hR i h) 4 24 20 _ _ h rfl (by decide)).rep

theorem rounds6_rep (hR : Sound R f) (unr : Unrolling) (s : St α) :
    lanesOf f (rounds6 R unr s).A = run 18 6 (lanesOf f s.A) := by
  have h := prep_inv hR s
  unfold rounds6
  cases unr
  · exact last6 hR h
  · exact last6 hR h
  · exact last6 hR h
  · exact (forLoop_inv 2 _ (by decide) (fun i s S h => two_inv hR i h) 3 24 18 _ _ h rfl (by decide)).rep
  · exact (forLoop_inv 3 _ (by decide) (fun i s S h => u3_inv hR i h) 2 24 18 _ _ h rfl (by decide)).rep
  · exact (forLoop_inv 2 _ (by decide) (fun i s S h => two_inv hR i h) 3 24 18 _ _ h rfl (by decide)).rep
  · exact (forLoop_inv 1 _ (by decide) (fun i s S h => u1_inv hR i h) 6 24 18 _ _ h rfl (by decide)).rep

theorem rounds12_rep (hR : Sound R f) (unr : Unrolling) (s : St α) :
    lanesOf f (rounds12 R unr s).A = run 12 12 (lanesOf f s.A) := by
  have h := prep_inv hR s
  unfold rounds12
  cases unr
  · exact last12 hR h
  · exact last12 hR h
  · exact (forLoop_inv 6 _ (by decide) (fun i s S h => u6_inv hR i h) 2 24 12 _ _ h rfl (by decide)).rep
  · exact (forLoop_inv 4 _ (by decide) (fun i s S h => u4_inv hR i h) 3 24 12 _ _ h rfl (by decide)).rep
  · exact (forLoop_inv 3 _ (by decide) (fun i s S h => u3_inv hR i h) 4 24 12 _ _ h rfl (by decide)).rep
  · exact (forLoop_inv 2 _ (by decide) (fun i s S h => two_inv hR i h) 6 24 12 _ _ h rfl (by decide)).rep
  · exact (forLoop_inv 1 _ (by decide) (fun i s S h => u1_inv hR i h) 12 24 12 _ _ h rfl (by decide)).rep

theorem rounds24_rep (hR : Sound R f) (unr : Unrolling) (s : St α) :
    lanesOf f (rounds24 R unr s).A = run 0 24 (lanesOf f s.A) := by
  have h := prep_inv hR s
  unfold rounds24
  cases unr
  · rw [show 24 = 12 + 12 from rfl, run_add]
    exact last12 hR (u12_inv hR 0 h)
  · exact (forLoop_inv 12 _ (by decide) (fun i s S h => u12_inv hR i h) 2 24 0 _ _ h rfl (by decide)).rep
  · exact (forLoop_inv 6 _ (by decide) (fun i s S h => u6_inv hR i h) 4 24 0 _ _ h rfl (by decide)).rep
  · exact (forLoop_inv 4 _ (by decide) (fun i s S h => u4_inv hR i h) 6 24 0 _ _ h rfl (by decide)).rep
  · exact (forLoop_inv 3 _ (by decide) (fun i s S h => u3_inv hR i h) 8 24 0 _ _ h rfl (by decide)).rep
  · exact (forLoop_inv 2 _ (by decide) (fun i s S h => two_inv hR i h) 12 24 0 _ _ h rfl (by decide)).rep
  · exact (forLoop_inv 1 _ (by decide) (fun i s S h => u1_inv hR i h) 24 24 0 _ _ h rfl (by decide)).rep

/-- The operations on registers are the operations of the 64-bit implementation in the lane `f`. -/
structure OpsOk (O : Ops α) (f : α → Lane) : Prop where
  xor : ∀ a b, f (O.xor a b) = f a ^^^ f b
  andnot : ∀ a b, f (O.andnot a b) = ~~~ f a &&& f b
  rol : ∀ a o, 0 < o → o < 64 → f (O.rol a o) = KeccakP1600.Opt64.rol64 (f a) o
  rol8 : ∀ a, f (O.rol8 a) = KeccakP1600.Opt64.rol64 (f a) 8
  rol56 : ∀ a, f (O.rol56 a) = KeccakP1600.Opt64.rol64 (f a) 56
  const : ∀ x, f (O.const x) = x

end Simd
