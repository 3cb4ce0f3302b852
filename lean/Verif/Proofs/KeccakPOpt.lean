import Verif.Model.KeccakP1600Opt
import Verif.Proofs.KeccakP

/-!
The compact and the optimised 64-bit implementations compute the rounds of the reference implementation.
-/

namespace KeccakP1600

/-- One round of the reference implementation with round constant `rc`. -/
def rstep (rc : Lane) (A : Lanes) : Lanes :=
  let B := Ref.chi (Ref.pi (Ref.rho Ref.rhoOffsets (Ref.theta A)))
  put B 0 (B 0 ^^^ rc)

theorem round_eq_rstep (A : Lanes) (i : Nat) :
    Ref.round Ref.roundConstants Ref.rhoOffsets A i = rstep (Ref.roundConstants.getD i 0) A := rfl

/-- A lane after theta, rho and pi, from the parity words `d`. -/
def bl (d : Nat → Lane) (A : Lanes) (x y : Fin 5) : Lane :=
  Ref.rol64 (A (lane (x + 3 * y) x) ^^^ d (x + 3 * y).val) (Ref.rhoOffsets.getD (lane (x + 3 * y) x).val 0)

theorem rstep_lane (rc : Lane) (A : Lanes) (x y : Fin 5) : rstep rc A (lane x y) =
    let r := bl (Ref.thetaD A) A x y ^^^ (~~~ bl (Ref.thetaD A) A (x + 1) y &&& bl (Ref.thetaD A) A (x + 2) y)
    if x = 0 ∧ y = 0 then r ^^^ rc else r := by
  have h : ∀ x y : Fin 5, Ref.pi (Ref.rho Ref.rhoOffsets (Ref.theta A)) (lane x y) = bl (Ref.thetaD A) A x y := by
    intro x y
    rw [pi_lane, rho_lane, theta_lane]; rfl
  have h0 : ∀ x y : Fin 5, (lane x y = 0) ↔ (x = 0 ∧ y = 0) := by decide
  have h00 : (0 : Fin 25) = lane 0 0 := rfl
  simp only [rstep, put, h0]
  split
  · rename_i hxy
    obtain ⟨rfl, rfl⟩ := hxy
    rw [h00, chi_lane, h, h, h]
  · rw [chi_lane, h, h, h]

namespace Opt64

theorem rol64_eq (a : Lane) (o : Nat) (h : o ≠ 0) : rol64 a o = Ref.rol64 a o := by
  simp [rol64, Ref.rol64, h]

/-- The words `D` of the macros. -/
def dOf (c : C5) : Nat → Lane
  | 0 => c.u ^^^ Ref.rol64 c.e 1
  | 1 => c.a ^^^ Ref.rol64 c.i 1
  | 2 => c.e ^^^ Ref.rol64 c.o 1
  | 3 => c.i ^^^ Ref.rol64 c.u 1
  | _ => c.o ^^^ Ref.rol64 c.a 1

theorem roundPrep_lane (rc : Lane) (A : V) (c : C5) : ∀ x y : Fin 5,
    copyToState (roundPrep rc A c).2.1 (lane x y) =
      let b := bl (dOf c) (copyToState A)
      let r := b x y ^^^ (~~~ b (x + 1) y &&& b (x + 2) y)
      if x = 0 ∧ y = 0 then r ^^^ rc else r := by
  intro x y
  fin_cases x <;> fin_cases y <;> rfl

theorem roundPrep_c (rc : Lane) (A : V) (c : C5) : (roundPrep rc A c).2.2 = prepareTheta (roundPrep rc A c).2.1 := rfl

theorem round_eq (rc : Lane) (A : V) (c : C5) : (round rc A c).2 = (roundPrep rc A c).2.1 := rfl

/-- The lanes that are stored complemented. -/
def comp (i : Fin 25) : Bool := [1, 2, 8, 12, 17, 20].contains i

/-- The complementing map on states. -/
def unc (A : Lanes) : Lanes := fun i => if comp i then ~~~ A i else A i

theorem unc_unc (A : Lanes) : unc (unc A) = A := by
  funext i; unfold unc; split <;> simp

/-- The nonlinear step of the lane complementing macros, on the lanes `b x y` after pi. -/
def lcChi (b : Fin 5 → Fin 5 → Lane) (x y : Fin 5) : Lane :=
  match x.val, y.val with
  | 0, 0 => b 0 0 ^^^ (b 1 0 ||| b 2 0)
  | 1, 0 => b 1 0 ^^^ ((~~~b 2 0) ||| b 3 0)
  | 2, 0 => b 2 0 ^^^ (b 3 0 &&& b 4 0)
  | 3, 0 => b 3 0 ^^^ (b 4 0 ||| b 0 0)
  | 4, 0 => b 4 0 ^^^ (b 0 0 &&& b 1 0)
  | 0, 1 => b 0 1 ^^^ (b 1 1 ||| b 2 1)
  | 1, 1 => b 1 1 ^^^ (b 2 1 &&& b 3 1)
  | 2, 1 => b 2 1 ^^^ (b 3 1 ||| (~~~b 4 1))
  | 3, 1 => b 3 1 ^^^ (b 4 1 ||| b 0 1)
  | 4, 1 => b 4 1 ^^^ (b 0 1 &&& b 1 1)
  | 0, 2 => b 0 2 ^^^ (b 1 2 ||| b 2 2)
  | 1, 2 => b 1 2 ^^^ (b 2 2 &&& b 3 2)
  | 2, 2 => b 2 2 ^^^ ((~~~b 3 2) &&& b 4 2)
  | 3, 2 => (~~~b 3 2) ^^^ (b 4 2 ||| b 0 2)
  | 4, 2 => b 4 2 ^^^ (b 0 2 &&& b 1 2)
  | 0, 3 => b 0 3 ^^^ (b 1 3 &&& b 2 3)
  | 1, 3 => b 1 3 ^^^ (b 2 3 ||| b 3 3)
  | 2, 3 => b 2 3 ^^^ ((~~~b 3 3) ||| b 4 3)
  | 3, 3 => (~~~b 3 3) ^^^ (b 4 3 &&& b 0 3)
  | 4, 3 => b 4 3 ^^^ (b 0 3 ||| b 1 3)
  | 0, 4 => b 0 4 ^^^ ((~~~b 1 4) &&& b 2 4)
  | 1, 4 => (~~~b 1 4) ^^^ (b 2 4 ||| b 3 4)
  | 2, 4 => b 2 4 ^^^ (b 3 4 &&& b 4 4)
  | 3, 4 => b 3 4 ^^^ (b 4 4 ||| b 0 4)
  | _, _ => b 4 4 ^^^ (b 0 4 &&& b 1 4)

theorem lcRoundPrep_lane (rc : Lane) (A : V) (c : C5) : ∀ x y : Fin 5,
    copyToState (lcRoundPrep rc A c).2.1 (lane x y) =
      let r := lcChi (bl (dOf c) (copyToState A)) x y
      if x = 0 ∧ y = 0 then r ^^^ rc else r := by
  intro x y
  fin_cases x <;> fin_cases y <;> rfl

theorem lcRoundPrep_c (rc : Lane) (A : V) (c : C5) :
    (lcRoundPrep rc A c).2.2 = prepareTheta (lcRoundPrep rc A c).2.1 := rfl

theorem lcRound_eq (rc : Lane) (A : V) (c : C5) : (lcRound rc A c).2 = (lcRoundPrep rc A c).2.1 := rfl

theorem rol64_not (a : Lane) (o : Nat) (ho : o < 64) : Ref.rol64 (~~~ a) o = ~~~ Ref.rol64 a o := by
  apply BitVec.eq_of_getLsbD_eq
  intro i hi
  have h := getLsbD_rol64 (~~~ a) o ho ⟨i, hi⟩
  have h' := getLsbD_rol64 a o ho ⟨i, hi⟩
  simp only at h h'
  rw [h, BitVec.getLsbD_not, BitVec.getLsbD_not, h']
  simp [hi]

/-- Which lanes after pi are complemented. -/
def compB (x y : Fin 5) : Bool :=
  let d := fun x : Fin 5 => x = 0 ∨ x = 3
  (comp (lane (x + 3 * y) x)) != d (x + 3 * y)

theorem not_xor' (a b : Lane) : ~~~ a ^^^ b = ~~~ (a ^^^ b) := by
  apply BitVec.eq_of_getLsbD_eq; intro i hi; simp [hi]

theorem xor_not' (a b : Lane) : a ^^^ ~~~ b = ~~~ (a ^^^ b) := by
  apply BitVec.eq_of_getLsbD_eq; intro i hi; simp [hi]

theorem bl_comp (d d' : Nat → Lane) (hd : ∀ x : Fin 5, d x.val = if x = 0 ∨ x = 3 then ~~~ d' x.val else d' x.val)
    (A : Lanes) (x y : Fin 5) :
    bl d (unc A) x y = if compB x y then ~~~ bl d' A x y else bl d' A x y := by
  have ho := rhoOffsets_lt (lane (x + 3 * y) x)
  unfold bl
  rw [hd]
  generalize Ref.rhoOffsets.getD (lane (x + 3 * y) x).val 0 = o at ho
  simp only [compB, unc]
  rcases Bool.eq_false_or_eq_true (comp (lane (x + 3 * y) x)) with hc | hc <;>
    by_cases hx : x + 3 * y = 0 ∨ x + 3 * y = 3 <;>
    simp [hx, hc, xor_not', not_xor', rol64_not _ _ ho]

theorem lcChi_comp (b : Fin 5 → Fin 5 → Lane) : ∀ x y : Fin 5,
    lcChi (fun x y => if compB x y then ~~~ b x y else b x y) x y =
      let r := b x y ^^^ (~~~ b (x + 1) y &&& b (x + 2) y)
      if comp (lane x y) then ~~~ r else r := by
  have key : ∀ p q : Lane, (∀ i, i < 64 → p.getLsbD i = q.getLsbD i) → p = q := fun p q h =>
    BitVec.eq_of_getLsbD_eq (by simpa using h)
  intro x y
  fin_cases x <;> fin_cases y <;>
    (apply key; intro i hi; simp [lcChi, compB, comp, lane, hi])
  all_goals grind

/-- The state represented by the variables. -/
def rep (k : Cfg) (A : V) : Lanes := if k.lc then unc (copyToState A) else copyToState A

theorem thetaD_eq (A : Lanes) (x : Nat) :
    Ref.thetaD A x = Ref.thetaC A ((x + 4) % 5) ^^^ Ref.rol64 (Ref.thetaC A ((x + 1) % 5)) 1 :=
  BitVec.xor_comm _ _

theorem thetaC_prepareTheta (A : V) :
    Ref.thetaC (copyToState A) 0 = (prepareTheta A).a ∧ Ref.thetaC (copyToState A) 1 = (prepareTheta A).e ∧
    Ref.thetaC (copyToState A) 2 = (prepareTheta A).i ∧ Ref.thetaC (copyToState A) 3 = (prepareTheta A).o ∧
    Ref.thetaC (copyToState A) 4 = (prepareTheta A).u :=
  have h : ∀ x : Fin 5, Ref.thetaC (copyToState A) x.val = copyToState A (lane x 0) ^^^ copyToState A (lane x 1) ^^^
      copyToState A (lane x 2) ^^^ copyToState A (lane x 3) ^^^ copyToState A (lane x 4) := by
    intro x; rw [thetaC_eq, show (0 : Lane) = 0#64 from rfl, BitVec.zero_xor]
  ⟨h 0, h 1, h 2, h 3, h 4⟩

theorem dOf_prepareTheta (A : V) (x : Fin 5) : dOf (prepareTheta A) x.val = Ref.thetaD (copyToState A) x.val := by
  obtain ⟨h0, h1, h2, h3, h4⟩ := thetaC_prepareTheta A
  fin_cases x <;> simp only [thetaD_eq, Nat.zero_add, Nat.reduceAdd, Nat.reduceMod, h0, h1, h2, h3, h4, dOf]

/-- Column parities of the complemented state. -/
theorem thetaD_unc (A : Lanes) (x : Fin 5) : Ref.thetaD (unc A) x.val =
    if x = 0 ∨ x = 3 then ~~~ Ref.thetaD A x.val else Ref.thetaD A x.val := by
  have h : ∀ x : Fin 5, Ref.thetaC (unc A) x.val = if x = 4 then Ref.thetaC A x.val else ~~~ Ref.thetaC A x.val := by
    intro x
    rw [thetaC_eq, thetaC_eq]
    fin_cases x <;> simp [unc, comp, lane, not_xor', xor_not']
  have h0 : Ref.thetaC (unc A) 0 = ~~~ Ref.thetaC A 0 := h 0
  have h1 : Ref.thetaC (unc A) 1 = ~~~ Ref.thetaC A 1 := h 1
  have h2 : Ref.thetaC (unc A) 2 = ~~~ Ref.thetaC A 2 := h 2
  have h3 : Ref.thetaC (unc A) 3 = ~~~ Ref.thetaC A 3 := h 3
  have h4 : Ref.thetaC (unc A) 4 = Ref.thetaC A 4 := h 4
  have hr := fun a => rol64_not a 1 (by decide)
  fin_cases x <;>
    simp [thetaD_eq, Nat.reduceAdd, Nat.reduceMod, h0, h1, h2, h3, h4, hr, not_xor', xor_not']

theorem prepRound (k : Cfg) (rc : Lane) (A : V) :
    let r := (if k.lc then lcRoundPrep else roundPrep) rc A (prepareTheta A)
    rep k r.2.1 = rstep rc (rep k A) ∧ r.2.2 = prepareTheta r.2.1 := by
  have hbl : ∀ {d d' : Nat → Lane} (A : Lanes), (∀ x : Fin 5, d x.val = d' x.val) → bl d A = bl d' A := by
    intro d d' A h; funext x y; simp only [bl, h]
  unfold rep
  cases k.lc
  · refine ⟨?_, roundPrep_c _ _ _⟩
    funext i
    revert i
    apply forall_fin25
    intro x y
    simp only [Bool.false_eq_true, if_false]
    rw [roundPrep_lane, rstep_lane, hbl _ (dOf_prepareTheta A)]
  · refine ⟨?_, lcRoundPrep_c _ _ _⟩
    funext i
    revert i
    apply forall_fin25
    intro x y
    simp only [if_true]
    have hb : bl (dOf (prepareTheta A)) (copyToState A) = fun x y => if compB x y then
        ~~~ bl (Ref.thetaD (unc (copyToState A))) (unc (copyToState A)) x y else
        bl (Ref.thetaD (unc (copyToState A))) (unc (copyToState A)) x y := by
      funext x y
      rw [hbl _ (dOf_prepareTheta A), ← bl_comp (Ref.thetaD (copyToState A)), unc_unc]
      intro x
      rw [← thetaD_unc, unc_unc]
    rw [unc, lcRoundPrep_lane, rstep_lane, hb, lcChi_comp]
    by_cases hxy : x = 0 ∧ y = 0
    · obtain ⟨rfl, rfl⟩ := hxy; rfl
    · simp only [hxy, if_false]
      split <;> simp

/-- The first component of what the loops need to know. -/
structure Inv (k : Cfg) (s : St) (S : Lanes) : Prop where
  rep : rep k s.A = S
  c : s.c = prepareTheta s.A

/-- Rounds `i, i+1, ..., i+n-1`. -/
def run (i n : Nat) (S : Lanes) : Lanes := loopFrom (fun i S => rstep (Ref.roundConstants.getD i 0) S) i n S

theorem run_add (i m n : Nat) (S : Lanes) : run i (m + n) S = run (i + m) n (run i m S) := by
  induction m generalizing i S with
  | zero => simp [run, loopFrom]
  | succ m ih =>
    have : m + 1 + n = (m + n) + 1 := by omega
    rw [this]
    show run (i + 1) (m + n) _ = run (i + (m + 1)) n (run (i + 1) m _)
    rw [ih]; congr 1; omega

theorem AE_inv (k : Cfg) {s : St} {S : Lanes} (h : Inv k s S) (i : Nat) :
    Inv k (copyAE (AE k i s)) (run i 1 S) ∧ KeccakP1600.Opt64.rep k (AE k i s).E = run i 1 S ∧
      (AE k i s).c = prepareTheta (AE k i s).E := by
  have h1 := prepRound k (Opt64.roundConstants.getD i 0) s.A
  rw [← h.c, h.rep] at h1
  exact ⟨⟨h1.1, h1.2⟩, h1.1, h1.2⟩

theorem two_inv (k : Cfg) {s : St} {S : Lanes} (h : Inv k s S) (i : Nat) : Inv k (two k i s) (run i 2 S) := by
  obtain ⟨-, h1, h2⟩ := AE_inv k h i
  have h3 := prepRound k (Opt64.roundConstants.getD (i + 1) 0) (AE k i s).E
  rw [← h2, h1] at h3
  exact ⟨h3.1, h3.2⟩

theorem last_rep (k : Cfg) {s : St} {S : Lanes} (h : Inv k s S) (i : Nat) :
    KeccakP1600.Opt64.rep k (lastEA k (i + 1) (AE k i s)).A = run i 2 S := by
  have h1 := (two_inv k h i).rep
  rw [← h1]
  unfold two EA lastEA
  cases k.lc
  · simp only [Bool.false_eq_true, if_false, round_eq]
  · simp only [if_true, lcRound_eq]

theorem forLoop_inv (k : Cfg) (step : Nat) (body : Nat → St → St) (hstep : 0 < step)
    (hb : ∀ i s S, Inv k s S → Inv k (body i s) (run i step S)) :
    ∀ (m fuel i : Nat) (s : St) (S : Lanes), Inv k s S → i + step * m = 24 → m ≤ fuel →
      Inv k (forLoop step body fuel i s) (run i (step * m) S) := by
  intro m
  induction m with
  | zero =>
    intro fuel i s S h hi hf
    have hi : ¬ i < 24 := by omega
    cases fuel with
    | zero => exact h
    | succ fuel => rw [forLoop, if_neg hi]; exact h
  | succ m ih =>
    intro fuel i s S h hi hf
    obtain ⟨fuel, rfl⟩ : ∃ f, fuel = f + 1 := ⟨fuel - 1, by omega⟩
    rw [Nat.mul_succ] at hi ⊢
    have : i < 24 := by omega
    rw [forLoop, if_pos this, Nat.add_comm (step * m), run_add]
    exact ih fuel (i + step) _ _ (hb i s S h) (by omega) (by omega)

theorem prep_inv (k : Cfg) (s : St) : Inv k (prep s) (rep k s.A) := ⟨rfl, rfl⟩

theorem u6_inv (k : Cfg) (i : Nat) (s : St) (S : Lanes) (h : Inv k s S) :
    Inv k (two k (i + 4) <| two k (i + 2) <| two k i s) (run i 6 S) := by
  rw [show 6 = 2 + (2 + 2) from rfl, run_add, run_add]
  exact two_inv k (two_inv k (two_inv k h _) _) _

theorem u12_inv (k : Cfg) (i : Nat) (s : St) (S : Lanes) (h : Inv k s S) :
    Inv k (two k (i + 10) <| two k (i + 8) <| two k (i + 6) <| two k (i + 4) <| two k (i + 2) <| two k i s)
      (run i 12 S) := by
  rw [show 12 = 6 + 6 from rfl, run_add]
  exact u6_inv k (i + 6) _ _ (u6_inv k i _ _ h)

theorem u4_inv (k : Cfg) (i : Nat) (s : St) (S : Lanes) (h : Inv k s S) :
    Inv k (two k (i + 2) <| two k i s) (run i 4 S) := by
  rw [show 4 = 2 + 2 from rfl, run_add]
  exact two_inv k (two_inv k h _) _

theorem u3_inv (k : Cfg) (i : Nat) (s : St) (S : Lanes) (h : Inv k s S) :
    Inv k (copyAE <| AE k (i + 2) <| two k i s) (run i 3 S) := by
  rw [show 3 = 2 + 1 from rfl, run_add]
  exact (AE_inv k (two_inv k h _) _).1

theorem u1_inv (k : Cfg) (i : Nat) (s : St) (S : Lanes) (h : Inv k s S) :
    Inv k (copyAE <| AE k i s) (run i 1 S) := (AE_inv k h i).1

/-- The last twelve rounds when they are fully unrolled. -/
theorem full12_rep (k : Cfg) (s : St) (S : Lanes) (h : Inv k s S) :
    rep k (lastEA k 23 (AE k 22 (two k 20 <| two k 18 <| two k 16 <| two k 14 <| two k 12 s))).A = run 12 12 S := by
  rw [show 12 = 6 + (4 + 2) from rfl, run_add, run_add]
  exact last_rep k (u4_inv k 18 _ _ (u6_inv k 12 _ _ h)) 22

theorem rounds12_rep (k : Cfg) (s : St) : rep k (rounds12 k s).A = run 12 12 (rep k s.A) := by
  have h := prep_inv k s
  unfold rounds12
  cases k.unr
  · exact full12_rep k _ _ h
  · exact full12_rep k _ _ h
  · exact (forLoop_inv k 6 _ (by decide) (fun i s S h => u6_inv k i s S h) 2 24 12 _ _ h rfl (by decide)).rep
  · exact (forLoop_inv k 4 _ (by decide) (fun i s S h => u4_inv k i s S h) 3 24 12 _ _ h rfl (by decide)).rep
  · exact (forLoop_inv k 3 _ (by decide) (fun i s S h => u3_inv k i s S h) 4 24 12 _ _ h rfl (by decide)).rep
  · exact (forLoop_inv k 2 _ (by decide) (fun i s S h => two_inv k h i) 6 24 12 _ _ h rfl (by decide)).rep
  · exact (forLoop_inv k 1 _ (by decide) (fun i s S h => u1_inv k i s S h) 12 24 12 _ _ h rfl (by decide)).rep

theorem rounds24_rep (k : Cfg) (s : St) : rep k (rounds24 k s).A = run 0 24 (rep k s.A) := by
  have h := prep_inv k s
  unfold rounds24
  cases k.unr
  · rw [show 24 = 12 + 12 from rfl, run_add]
    exact full12_rep k _ _ (u12_inv k 0 _ _ h)
  · exact (forLoop_inv k 12 _ (by decide) (fun i s S h => u12_inv k i s S h) 2 24 0 _ _ h rfl (by decide)).rep
  · exact (forLoop_inv k 6 _ (by decide) (fun i s S h => u6_inv k i s S h) 4 24 0 _ _ h rfl (by decide)).rep
  · exact (forLoop_inv k 4 _ (by decide) (fun i s S h => u4_inv k i s S h) 6 24 0 _ _ h rfl (by decide)).rep
  · exact (forLoop_inv k 3 _ (by decide) (fun i s S h => u3_inv k i s S h) 8 24 0 _ _ h rfl (by decide)).rep
  · exact (forLoop_inv k 2 _ (by decide) (fun i s S h => two_inv k h i) 12 24 0 _ _ h rfl (by decide)).rep
  · exact (forLoop_inv k 1 _ (by decide) (fun i s S h => u1_inv k i s S h) 24 24 0 _ _ h rfl (by decide)).rep

theorem roundsN_eq (k : Cfg) (nr : Nat) (s : St) : roundsN k nr s =
    if (24 - nr) % 2 ≠ 0 then forLoop 2 (two k) 24 (24 - nr + 1) (copyAE (AE k (24 - nr) (prep s)))
    else forLoop 2 (two k) 24 (24 - nr) (prep s) := by
  unfold roundsN
  by_cases hp : (24 - nr) % 2 ≠ 0
  · rw [if_pos hp]; simp only [if_pos hp]
  · rw [if_neg hp]; simp only [if_neg hp]

theorem roundsN_rep (k : Cfg) (nr : Nat) (hnr : nr ≤ 24) (s : St) :
    rep k (roundsN k nr s).A = run (24 - nr) nr (rep k s.A) := by
  have h := prep_inv k s
  rw [roundsN_eq]
  split
  · rename_i hp
    obtain ⟨m, hm⟩ : ∃ m, nr = 1 + 2 * m := ⟨(nr - 1) / 2, by omega⟩
    have h1 := u1_inv k (24 - nr) _ _ h
    have h2 := (forLoop_inv k 2 (two k) (by decide) (fun i s S h => two_inv k h i) m 24 (24 - nr + 1) _ _ h1
      (by omega) (by omega)).rep
    rw [h2, ← run_add, ← hm]
  · obtain ⟨m, hm⟩ : ∃ m, nr = 2 * m := ⟨nr / 2, by omega⟩
    have h2 := (forLoop_inv k 2 (two k) (by decide) (fun i s S h => two_inv k h i) m 24 (24 - nr) _ _ h
      (by omega) (by omega)).rep
    rw [h2, ← hm]

theorem run_onWords (nr : Nat) (A : Lanes) :
    run (24 - nr) nr A = Ref.onWords Ref.roundConstants Ref.rhoOffsets A nr := rfl

theorem copyToState_copyFromState (L : Lanes) : copyToState (copyFromState L) = L := by
  funext i; fin_cases i <;> rfl

theorem copyFromState_copyToState (A : V) : copyFromState (copyToState A) = A := rfl

theorem addInput_lane (v : V) (input : Nat → Lane) : ∀ (n : Fin 26) (i : Fin 25),
    copyToState (addInput v input n.val) i =
      if i.val < n.val then copyToState v i ^^^ input i.val else copyToState v i := by
  intro n i
  fin_cases n <;> fin_cases i <;> rfl

end Opt64

namespace Compact

theorem theta_lane (A : Lanes) : ∀ x y : Fin 5, Compact.theta A (lane x y) = A (lane x y) ^^^
    (A (lane (x + 4) 0) ^^^ A (lane (x + 4) 1) ^^^ A (lane (x + 4) 2) ^^^ A (lane (x + 4) 3) ^^^ A (lane (x + 4) 4) ^^^
      Ref.rol64 (A (lane (x + 1) 0) ^^^ A (lane (x + 1) 1) ^^^ A (lane (x + 1) 2) ^^^ A (lane (x + 1) 3) ^^^
        A (lane (x + 1) 4)) 1) := by
  intro x y
  fin_cases x <;> fin_cases y <;> rfl

theorem theta_eq (A : Lanes) : Compact.theta A = Ref.theta A := by
  funext i
  revert i
  apply forall_fin25
  intro x y
  rw [theta_lane, KeccakP1600.theta_lane, Opt64.thetaD_eq]
  have h : ∀ x : Fin 5, Ref.thetaC A x.val = A (lane x 0) ^^^ A (lane x 1) ^^^ A (lane x 2) ^^^ A (lane x 3) ^^^
      A (lane x 4) := by
    intro x; rw [thetaC_eq, show (0 : Lane) = 0#64 from rfl, BitVec.zero_xor]
  rw [← h, ← h]
  fin_cases x <;> rfl

theorem rhoPi_eq (A : Lanes) : rhoPi A = Ref.pi (Ref.rho Ref.rhoOffsets A) := by
  funext i
  revert i
  apply forall_fin25
  intro x y
  rw [pi_lane, rho_lane]
  fin_cases x <;> fin_cases y <;> rfl

theorem chi_eq (A : Lanes) : Compact.chi A = Ref.chi A := by
  funext i
  revert i
  apply forall_fin25
  intro x y
  rw [chi_lane]
  fin_cases x <;> fin_cases y <;> rfl

theorem rc_eq : ∀ i : Fin 24, getNextRoundConstant (skip i.val 0x01) =
    (Ref.roundConstants.getD i.val 0, skip (i.val + 1) 0x01) := by decide +kernel

theorem loop_eq (n : Nat) : ∀ (fuel i : Nat) (A : Lanes), n + 1 ≤ fuel → i + (n + 1) ≤ 24 →
    loop fuel A (skip i 0x01) (BitVec.ofNat 8 (n + 1)) = some (Opt64.run i (n + 1) A) := by
  induction n with
  | zero =>
    intro fuel i A hf hi
    obtain ⟨fuel, rfl⟩ : ∃ f, fuel = f + 1 := ⟨fuel - 1, by omega⟩
    have := rc_eq ⟨i, by omega⟩
    simp only at this
    simp only [loop, this, theta_eq, rhoPi_eq, chi_eq]
    rfl
  | succ n ih =>
    intro fuel i A hf hi
    obtain ⟨fuel, rfl⟩ : ∃ f, fuel = f + 1 := ⟨fuel - 1, by omega⟩
    have := rc_eq ⟨i, by omega⟩
    simp only at this
    have h1 : BitVec.ofNat 8 (n + 1 + 1) - 1 = BitVec.ofNat 8 (n + 1) := by
      apply BitVec.eq_of_toNat_eq
      simp [BitVec.toNat_sub]
      omega
    have h2 : BitVec.ofNat 8 (n + 1) ≠ 0 := by
      intro h
      have := congrArg BitVec.toNat h
      simp at this
      omega
    simp only [loop, this, theta_eq, rhoPi_eq, chi_eq, h1]
    rw [if_pos h2, ih fuel (i + 1) _ (by omega) (by omega)]
    rfl

theorem loop_all : ∀ (fuel : Nat) (LFSR : Byte) (A : Lanes) (round : Byte) (v : Nat), v ≤ fuel → 0 < v → v ≤ 256 →
    v % 256 = round.toNat →
    ∃ rcs : List Lane, rcs.length = v ∧ loop fuel A LFSR round = some (rcs.foldl (fun A rc => rstep rc A) A) := by
  intro fuel
  induction fuel with
  | zero => intro LFSR A round v h1 h2; omega
  | succ fuel ih =>
    intro LFSR A round v h1 h2 h3 h4
    have e : (round - 1).toNat = (v - 1) % 256 := by
      rw [BitVec.toNat_sub]
      simp
      omega
    simp only [loop, theta_eq, rhoPi_eq, chi_eq]
    split
    · rename_i hne
      have hv : v - 1 ≠ 0 := by
        intro h0
        apply hne
        apply BitVec.eq_of_toNat_eq
        rw [e, h0]; rfl
      obtain ⟨rcs, l, h⟩ := ih (getNextRoundConstant LFSR).2 (rstep (getNextRoundConstant LFSR).1 A) (round - 1) (v - 1)
        (by omega) (by omega) (by omega) (by rw [e])
      refine ⟨(getNextRoundConstant LFSR).1 :: rcs, by simp [l]; omega, ?_⟩
      exact h
    · rename_i hne
      have h0 : round - 1 = 0 := Classical.not_not.1 hne
      rw [h0] at e
      have : v = 1 := by simp at e; omega
      exact ⟨[(getNextRoundConstant LFSR).1], by simp [this], rfl⟩

theorem permuteNrounds_eq (A : Lanes) (nr : Nat) (h0 : 0 < nr) (h : nr ≤ 24) :
    permuteNrounds A nr = some (Ref.onWords Ref.roundConstants Ref.rhoOffsets A nr) := by
  have hk : (2 ^ 32 + 24 - nr) % 2 ^ 8 = 24 - nr := by omega
  obtain ⟨n, rfl⟩ : ∃ n, nr = n + 1 := ⟨nr - 1, by omega⟩
  rw [permuteNrounds, hk, permuteNroundsLFSR, loop_eq n 256 _ A (by omega) (by omega)]
  rfl

theorem permute24_eq (A : Lanes) :
    permute24 A = some (Ref.onWords Ref.roundConstants Ref.rhoOffsets A 24) :=
  loop_eq 23 256 0 A (by decide) (by decide)

theorem permute12_eq (A : Lanes) :
    permute12 A = some (Ref.onWords Ref.roundConstants Ref.rhoOffsets A 12) := by
  have h : (0xD5 : Byte) = skip 12 0x01 := by decide +kernel
  rw [permute12, h]
  exact loop_eq 11 256 12 A (by decide) (by decide)

end Compact
end KeccakP1600
