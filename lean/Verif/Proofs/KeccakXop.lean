import Verif.Model.KeccakXop
import Verif.Proofs.KeccakPOpt
import Verif.Proofs.SimdOps

/-!
The rounds and the loops of the XOP implementation are those of the reference implementation.
-/

namespace Xop

open KeccakP1600 (Lane Lanes put rstep lane forall_fin25)
open KeccakP1600.Opt64 (Unrolling run run_add)
open Simd (Vec xor andnot roti unpacklo unpackhi)

theorem halves (x : Lane) : x.extractLsb' 32 32 ++ x.extractLsb' 0 32 = x := by
  apply BitVec.eq_of_getLsbD_eq
  intro i hi
  rw [BitVec.getLsbD_append]
  by_cases h : i < 32
  · simp [h]
  · rw [if_neg h, BitVec.getLsbD_extractLsb', show 32 + (i - 32) = i by omega]
    simp; omega

theorem swap64_eq (a : Vec 2) : swap64 a = fun l => if l.val = 0 then a 1 else a 0 := by
  funext l
  fin_cases l
  · exact halves (a 1)
  · exact halves (a 0)

theorem copy64HI2LO_eq (a : Vec 2) : copy64HI2LO a = fun _ => a 1 := by
  funext l
  fin_cases l
  · exact halves (a 1)
  · exact halves (a 1)

theorem get64HILO_eq (a b : Vec 2) : get64HILO a b = fun l => if l.val = 0 then a 1 else b 0 := by
  rw [get64HILO, swap64_eq]; rfl

theorem ref_rol64 (x : Lane) (o : Nat) (h : o < 64) : x.rotateLeft o = KeccakP1600.Ref.rol64 x o := by
  by_cases h0 : o = 0
  · subst h0
    have e : x.rotateLeft 0 = x := by
      apply BitVec.eq_of_getLsbD_eq
      intro i hi
      simp [BitVec.getLsbD_rotateLeft, hi]
    rw [e]; rfl
  · rw [Simd.rotateLeft_eq x o (by omega) h, KeccakP1600.Opt64.rol64_eq x o h0]

theorem rol6464_eq (a : Vec 2) (r1 r2 : Nat) (h1 : r1 < 64) (h2 : r2 < 64) :
    rol6464 a r1 r2 = fun l => KeccakP1600.Ref.rol64 (a l) (if l.val = 0 then r1 else r2) := by
  funext l
  have e : ∀ r, r < 64 → (BitVec.ofNat 64 r).toNat % 256 % 64 = r := by
    intro r hr; rw [BitVec.toNat_ofNat]; omega
  fin_cases l
  · show (a 0).rotateLeft ((BitVec.ofNat 64 r1).toNat % 256 % 64) = _
    rw [e _ h1, ref_rol64 _ _ h1]; rfl
  · show (a 1).rotateLeft ((BitVec.ofNat 64 r2).toNat % 256 % 64) = _
    rw [e _ h2, ref_rol64 _ _ h2]; rfl

theorem roti_eq (a : Vec 2) (o : Nat) (h : o < 64) : roti a o = fun l => KeccakP1600.Ref.rol64 (a l) o := by
  funext l; exact ref_rol64 _ _ h

theorem xor_const64 (a : Vec 2) (x : Lane) : xor a (const64 x) = fun l => if l.val = 0 then a l ^^^ x else a l := by
  funext l
  fin_cases l
  · rfl
  · show a 1 ^^^ 0#64 = a 1
    exact BitVec.xor_zero

/-- The lanes in the variables. -/
def optOf (A : V) : KeccakP1600.Opt64.V where
  ba := A.bage 0
  be := A.begi 0
  bi := A.bigo 0
  bo := A.bogu 0
  bu := A.buga 0
  ga := A.buga 1
  ge := A.bage 1
  gi := A.begi 1
  go := A.bigo 1
  gu := A.bogu 1
  ka := A.kame 0
  ke := A.kemi 0
  ki := A.kimo 0
  ko := A.komu 0
  ku := A.kuma 0
  ma := A.kuma 1
  me := A.kame 1
  mi := A.kemi 1
  mo := A.kimo 1
  mu := A.komu 1
  sa := A.sase 0
  se := A.sase 1
  si := A.siso 0
  so := A.siso 1
  su := A.su 0

/-- The parities. -/
def parOf (c : C3) : KeccakP1600.Opt64.C5 := ⟨c.ae 0, c.ae 1, c.io 0, c.io 1, c.ua 0⟩

/-- The state in the variables. -/
def lanesOf (A : V) : Lanes := KeccakP1600.Opt64.copyToState (optOf A)

theorem roundPrep_lane (rc : Lane) (A : V) (c : C3) : ∀ x y : Fin 5,
    lanesOf (roundPrep rc A c).1 (lane x y) =
      let b := KeccakP1600.bl (KeccakP1600.Opt64.dOf (parOf c)) (lanesOf A)
      let r := b x y ^^^ (~~~ b (x + 1) y &&& b (x + 2) y)
      if x = 0 ∧ y = 0 then r ^^^ rc else r := by
  intro x y
  unfold roundPrep
  simp -zeta only [swap64_eq, get64HILO_eq, copy64HI2LO_eq, xor_const64, rol6464_eq, roti_eq, Nat.reduceLT]
  fin_cases x <;> fin_cases y <;> rfl

/-- The parities as computed from the new variables. -/
def parity (E : V) : C3 :=
  let Cae := xor (xor E.bage E.kame) E.sase
  let Cei := xor E.begi E.kemi
  let Cio := xor (xor E.bigo E.kimo) E.siso
  let Cou := xor E.bogu E.komu
  let Cua := xor (xor E.buga E.kuma) E.su
  let Zero := zero128
  let Cae := xor Cae (get64HIHI Cua Zero)
  let Cae := xor Cae (get64LOLO Zero Cei)
  let Cio := xor Cio (get64HIHI Cei Zero)
  let Cio := xor Cio (get64LOLO Zero Cou)
  let Cua := xor Cua (get64HIHI Cou Zero)
  ⟨Cae, Cio, Cua⟩

theorem roundPrep_parity (rc : Lane) (A : V) (c : C3) :
    (roundPrep rc A c).2 = parity (roundPrep rc A c).1 ∧ (roundPrep rc A c).1.su 1 = 0 := ⟨rfl, rfl⟩

theorem parOf_parity (E : V) (h : E.su 1 = 0) : parOf (parity E) = KeccakP1600.Opt64.prepareTheta (optOf E) := by
  have ea : (parity E).ae 0 = E.bage 0 ^^^ E.kame 0 ^^^ E.sase 0 ^^^ (E.buga 1 ^^^ E.kuma 1 ^^^ E.su 1) ^^^ 0#64 := rfl
  have ee : (parity E).ae 1 = E.bage 1 ^^^ E.kame 1 ^^^ E.sase 1 ^^^ 0#64 ^^^ (E.begi 0 ^^^ E.kemi 0) := rfl
  have ei : (parity E).io 0 = E.bigo 0 ^^^ E.kimo 0 ^^^ E.siso 0 ^^^ (E.begi 1 ^^^ E.kemi 1) ^^^ 0#64 := rfl
  have eo : (parity E).io 1 = E.bigo 1 ^^^ E.kimo 1 ^^^ E.siso 1 ^^^ 0#64 ^^^ (E.bogu 0 ^^^ E.komu 0) := rfl
  have eu : (parity E).ua 0 = E.buga 0 ^^^ E.kuma 0 ^^^ E.su 0 ^^^ (E.bogu 1 ^^^ E.komu 1) := rfl
  have h' : E.su 1 = 0#64 := h
  unfold parOf KeccakP1600.Opt64.prepareTheta optOf
  rw [ea, ee, ei, eo, eu, h']
  simp only [BitVec.xor_zero, KeccakP1600.Opt64.C5.mk.injEq]
  refine ⟨?_, ?_, ?_, ?_, ?_⟩ <;> ac_rfl

theorem step (rc : Lane) (A : V) (c : C3) (hc : parOf c = KeccakP1600.Opt64.prepareTheta (optOf A)) :
    lanesOf (roundPrep rc A c).1 = rstep rc (lanesOf A) ∧
      parOf (roundPrep rc A c).2 = KeccakP1600.Opt64.prepareTheta (optOf (roundPrep rc A c).1) := by
  have hbl : ∀ {d d' : Nat → Lane} (A : Lanes), (∀ x : Fin 5, d x.val = d' x.val) → KeccakP1600.bl d A = KeccakP1600.bl d' A := by
    intro d d' A h; funext x y; simp only [KeccakP1600.bl, h]
  obtain ⟨h1, h2⟩ := roundPrep_parity rc A c
  refine ⟨?_, ?_⟩
  · funext i
    revert i
    apply forall_fin25
    intro x y
    rw [roundPrep_lane, KeccakP1600.rstep_lane, hc, hbl _ (KeccakP1600.Opt64.dOf_prepareTheta (optOf A))]
    rfl
  · rw [h1, parOf_parity _ h2]

/-- What the loops need to know. -/
structure Inv (s : St) (S : Lanes) : Prop where
  rep : lanesOf s.A = S
  c : parOf s.c = KeccakP1600.Opt64.prepareTheta (optOf s.A)

theorem roundConstants_eq : roundConstants = KeccakP1600.Ref.roundConstants := rfl

theorem AE_inv {s : St} {S : Lanes} (h : Inv s S) (i : Nat) :
    lanesOf (AE i s).E = run i 1 S ∧ parOf (AE i s).c = KeccakP1600.Opt64.prepareTheta (optOf (AE i s).E) := by
  have h1 := step (roundConstants.getD i 0) s.A s.c h.c
  rw [h.rep] at h1
  exact h1

theorem u1_inv (i : Nat) {s : St} {S : Lanes} (h : Inv s S) : Inv (copyAE (AE i s)) (run i 1 S) :=
  ⟨(AE_inv h i).1, (AE_inv h i).2⟩

theorem two_inv (i : Nat) {s : St} {S : Lanes} (h : Inv s S) : Inv (two i s) (run i 2 S) := by
  obtain ⟨h1, h2⟩ := AE_inv h i
  have h3 := step (roundConstants.getD (i + 1) 0) (AE i s).E (AE i s).c h2
  rw [h1] at h3
  exact ⟨h3.1, h3.2⟩

theorem forLoop_inv (step : Nat) (body : Nat → St → St) (hstep : 0 < step)
    (hb : ∀ i s S, Inv s S → Inv (body i s) (run i step S)) :
    ∀ (m fuel i : Nat) (s : St) (S : Lanes), Inv s S → i + step * m = 24 → m ≤ fuel →
      Inv (forLoop step body fuel i s) (run i (step * m) S) := by
  intro m
  induction m with
  | zero =>
    intro fuel i s S h hi hf
    have hi : ¬ i < 24 := by omega
    cases fuel with
    | zero => exact h
    | succ fuel => rw [forLoop, if_neg hi]; exact h
  | succ m ih =>
    intro fuel i s S h hi hf
    obtain ⟨fuel, rfl⟩ : ∃ f, fuel = f + 1 := ⟨fuel - 1, by omega⟩
    rw [Nat.mul_succ] at hi ⊢
    have : i < 24 := by omega
    rw [forLoop, if_pos this, Nat.add_comm (step * m), run_add]
    exact ih fuel (i + step) _ _ (hb i s S h) (by omega) (by omega)

theorem u3_inv (i : Nat) {s : St} {S : Lanes} (h : Inv s S) : Inv (copyAE <| AE (i + 2) <| two i s) (run i 3 S) := by
  rw [show 3 = 2 + 1 from rfl, run_add]
  exact u1_inv _ (two_inv _ h)

theorem u4_inv (i : Nat) {s : St} {S : Lanes} (h : Inv s S) : Inv (two (i + 2) <| two i s) (run i 4 S) := by
  rw [show 4 = 2 + 2 from rfl, run_add]
  exact two_inv _ (two_inv _ h)

theorem u6_inv (i : Nat) {s : St} {S : Lanes} (h : Inv s S) : Inv (two (i + 4) <| two (i + 2) <| two i s) (run i 6 S) := by
  rw [show 6 = 2 + (2 + 2) from rfl, run_add, run_add]
  exact two_inv _ (two_inv _ (two_inv _ h))

theorem u12_inv (i : Nat) {s : St} {S : Lanes} (h : Inv s S) :
    Inv (two (i + 10) <| two (i + 8) <| two (i + 6) <| two (i + 4) <| two (i + 2) <| two i s) (run i 12 S) := by
  rw [show 12 = 6 + 6 from rfl, run_add]
  exact u6_inv (i + 6) (u6_inv i h)

theorem rounds12_inv (unr : Unrolling) {s : St} {S : Lanes} (h : Inv s S) : Inv (rounds12 unr s) (run 12 12 S) := by
  unfold rounds12
  cases unr
  · exact u12_inv 12 h
  · exact u12_inv 12 h
  · exact forLoop_inv 6 _ (by decide) (fun i s S h => u6_inv i h) 2 24 12 _ _ h rfl (by decide)
  · exact forLoop_inv 4 _ (by decide) (fun i s S h => u4_inv i h) 3 24 12 _ _ h rfl (by decide)
  · exact forLoop_inv 3 _ (by decide) (fun i s S h => u3_inv i h) 4 24 12 _ _ h rfl (by decide)
  · exact forLoop_inv 2 _ (by decide) (fun i s S h => two_inv i h) 6 24 12 _ _ h rfl (by decide)
  · exact forLoop_inv 1 _ (by decide) (fun i s S h => u1_inv i h) 12 24 12 _ _ h rfl (by decide)

theorem rounds24_inv (unr : Unrolling) {s : St} {S : Lanes} (h : Inv s S) : Inv (rounds24 unr s) (run 0 24 S) := by
  unfold rounds24
  cases unr
  · rw [show 24 = 12 + 12 from rfl, run_add]
    exact u12_inv 12 (u12_inv 0 h)
  · exact forLoop_inv 12 _ (by decide) (fun i s S h => u12_inv i h) 2 24 0 _ _ h rfl (by decide)
  · exact forLoop_inv 6 _ (by decide) (fun i s S h => u6_inv i h) 4 24 0 _ _ h rfl (by decide)
  · exact forLoop_inv 4 _ (by decide) (fun i s S h => u4_inv i h) 6 24 0 _ _ h rfl (by decide)
  · exact forLoop_inv 3 _ (by decide) (fun i s S h => u3_inv i h) 8 24 0 _ _ h rfl (by decide)
  · exact forLoop_inv 2 _ (by decide) (fun i s S h => two_inv i h) 12 24 0 _ _ h rfl (by decide)
  · exact forLoop_inv 1 _ (by decide) (fun i s S h => u1_inv i h) 24 24 0 _ _ h rfl (by decide)

theorem roundsN_eq (nr : Nat) (s : St) : roundsN nr s =
    if (24 - nr) % 2 ≠ 0 then forLoop 2 two 24 (24 - nr + 1) (copyAE (AE (24 - nr) s))
    else forLoop 2 two 24 (24 - nr) s := by
  unfold roundsN
  by_cases hp : (24 - nr) % 2 ≠ 0
  · rw [if_pos hp]; simp only [if_pos hp]
  · rw [if_neg hp]; simp only [if_neg hp]

theorem roundsN_inv (nr : Nat) (hnr : nr ≤ 24) {s : St} {S : Lanes} (h : Inv s S) :
    Inv (roundsN nr s) (run (24 - nr) nr S) := by
  rw [roundsN_eq]
  split
  · rename_i hp
    obtain ⟨m, hm⟩ : ∃ m, nr = 1 + 2 * m := ⟨(nr - 1) / 2, by omega⟩
    have h2 := forLoop_inv 2 two (by decide) (fun i s S h => two_inv i h) m 24 (24 - nr + 1) _ _ (u1_inv (24 - nr) h)
      (by omega) (by omega)
    rw [← run_add, ← hm] at h2
    exact h2
  · obtain ⟨m, hm⟩ : ∃ m, nr = 2 * m := ⟨nr / 2, by omega⟩
    have h2 := forLoop_inv 2 two (by decide) (fun i s S h => two_inv i h) m 24 (24 - nr) _ _ h
      (by omega) (by omega)
    rw [← hm] at h2
    exact h2

theorem copyFromState_inv (E0 : V) (L : Lanes) : Inv ⟨(copyFromState L).1, E0, (copyFromState L).2⟩ L := by
  refine ⟨?_, rfl⟩
  show lanesOf (copyFromState L).1 = L
  exact (KeccakP1600.Opt64.copyToState_copyFromState L :)

theorem copyToState_eq (L : Lanes) (X : V) : copyToState L X = lanesOf X := by
  unfold copyToState
  simp -zeta only [copy64HI2LO_eq]
  funext i
  fin_cases i <;> rfl

theorem permuteNrounds_eq (E0 : V) (L : Lanes) (nr : Nat) (h : nr ≤ 24) :
    permuteNrounds E0 L nr = KeccakP1600.Ref.onWords KeccakP1600.Ref.roundConstants KeccakP1600.Ref.rhoOffsets L nr := by
  rw [permuteNrounds, copyToState_eq, (roundsN_inv nr h (copyFromState_inv E0 L)).rep]
  exact KeccakP1600.Opt64.run_onWords nr L

theorem permute12_eq (unr : Unrolling) (E0 : V) (L : Lanes) :
    permute12 unr E0 L = KeccakP1600.Ref.onWords KeccakP1600.Ref.roundConstants KeccakP1600.Ref.rhoOffsets L 12 := by
  rw [permute12, copyToState_eq, (rounds12_inv unr (copyFromState_inv E0 L)).rep]
  exact KeccakP1600.Opt64.run_onWords 12 L

theorem permute24_eq (unr : Unrolling) (E0 : V) (L : Lanes) :
    permute24 unr E0 L = KeccakP1600.Ref.onWords KeccakP1600.Ref.roundConstants KeccakP1600.Ref.rhoOffsets L 24 := by
  rw [permute24, copyToState_eq, (rounds24_inv unr (copyFromState_inv E0 L)).rep]
  exact KeccakP1600.Opt64.run_onWords 24 L

end Xop
