import Verif.Model.KeccakX64Asm
import Verif.Proofs.KeccakPOpt

/-!
The rounds of the x86-64 implementation in assembly.
-/

namespace X64Asm

open KeccakP1600 (Lane Lanes rstep)
open KeccakP1600.Opt64 (V C5 copyToState copyFromState lcRoundPrep rol64 rep run unc)

/-- The rotations are rotations, in both versions. -/
theorem rol_eq (v : Variant) (k : Nat) (a : Lane) (h0 : 0 < k) (h : k < 64) : v.rol k a = rol64 a k := by
  unfold Variant.rol rol64
  have key : (a <<< k) ||| (a >>> (64 - k)) = (a <<< k) ^^^ (a >>> (64 - k)) := by
    apply BitVec.eq_of_getLsbD_eq
    intro i hi
    rw [BitVec.getLsbD_or, BitVec.getLsbD_xor, BitVec.getLsbD_shiftLeft, BitVec.getLsbD_ushiftRight]
    by_cases hk : i < k
    · simp [hk]
    · rw [BitVec.getLsbD_of_ge a (64 - k + i) (by omega)]; simp
  split
  · exact key
  · rw [← key, BitVec.rotateLeft_def, Nat.mod_eq_of_lt h]

/-- The lanes after a round with lane complementing, from the words `D` of theta. -/
def E5 (rc : Lane) (A : V) (Da De Di Do Du : Lane) : V :=
  let Aba := A.ba
  let Abe := A.be
  let Abi := A.bi
  let Abo := A.bo
  let Abu := A.bu
  let Aga := A.ga
  let Age := A.ge
  let Agi := A.gi
  let Ago := A.go
  let Agu := A.gu
  let Aka := A.ka
  let Ake := A.ke
  let Aki := A.ki
  let Ako := A.ko
  let Aku := A.ku
  let Ama := A.ma
  let Ame := A.me
  let Ami := A.mi
  let Amo := A.mo
  let Amu := A.mu
  let Asa := A.sa
  let Ase := A.se
  let Asi := A.si
  let Aso := A.so
  let Asu := A.su
  let Aba := Aba ^^^ Da
  let Bba := Aba
  let Age := Age ^^^ De
  let Bbe := (rol64 Age 44)
  let Aki := Aki ^^^ Di
  let Bbi := (rol64 Aki 43)
  let Amo := Amo ^^^ Do
  let Bbo := (rol64 Amo 21)
  let Asu := Asu ^^^ Du
  let Bbu := (rol64 Asu 14)
  let Eba := Bba ^^^ (Bbe ||| Bbi)
  let Eba := Eba ^^^ rc
  let Ebe := Bbe ^^^ ((~~~Bbi) ||| Bbo)
  let Ebi := Bbi ^^^ (Bbo &&& Bbu)
  let Ebo := Bbo ^^^ (Bbu ||| Bba)
  let Ebu := Bbu ^^^ (Bba &&& Bbe)
  let Abo := Abo ^^^ Do
  let Bga := (rol64 Abo 28)
  let Agu := Agu ^^^ Du
  let Bge := (rol64 Agu 20)
  let Aka := Aka ^^^ Da
  let Bgi := (rol64 Aka 3)
  let Ame := Ame ^^^ De
  let Bgo := (rol64 Ame 45)
  let Asi := Asi ^^^ Di
  let Bgu := (rol64 Asi 61)
  let Ega := Bga ^^^ (Bge ||| Bgi)
  let Ege := Bge ^^^ (Bgi &&& Bgo)
  let Egi := Bgi ^^^ (Bgo ||| (~~~Bgu))
  let Ego := Bgo ^^^ (Bgu ||| Bga)
  let Egu := Bgu ^^^ (Bga &&& Bge)
  let Abe := Abe ^^^ De
  let Bka := (rol64 Abe 1)
  let Agi := Agi ^^^ Di
  let Bke := (rol64 Agi 6)
  let Ako := Ako ^^^ Do
  let Bki := (rol64 Ako 25)
  let Amu := Amu ^^^ Du
  let Bko := (rol64 Amu 8)
  let Asa := Asa ^^^ Da
  let Bku := (rol64 Asa 18)
  let Eka := Bka ^^^ (Bke ||| Bki)
  let Eke := Bke ^^^ (Bki &&& Bko)
  let Eki := Bki ^^^ ((~~~Bko) &&& Bku)
  let Eko := (~~~Bko) ^^^ (Bku ||| Bka)
  let Eku := Bku ^^^ (Bka &&& Bke)
  let Abu := Abu ^^^ Du
  let Bma := (rol64 Abu 27)
  let Aga := Aga ^^^ Da
  let Bme := (rol64 Aga 36)
  let Ake := Ake ^^^ De
  let Bmi := (rol64 Ake 10)
  let Ami := Ami ^^^ Di
  let Bmo := (rol64 Ami 15)
  let Aso := Aso ^^^ Do
  let Bmu := (rol64 Aso 56)
  let Ema := Bma ^^^ (Bme &&& Bmi)
  let Eme := Bme ^^^ (Bmi ||| Bmo)
  let Emi := Bmi ^^^ ((~~~Bmo) ||| Bmu)
  let Emo := (~~~Bmo) ^^^ (Bmu &&& Bma)
  let Emu := Bmu ^^^ (Bma ||| Bme)
  let Abi := Abi ^^^ Di
  let Bsa := (rol64 Abi 62)
  let Ago := Ago ^^^ Do
  let Bse := (rol64 Ago 55)
  let Aku := Aku ^^^ Du
  let Bsi := (rol64 Aku 39)
  let Ama := Ama ^^^ Da
  let Bso := (rol64 Ama 41)
  let Ase := Ase ^^^ De
  let Bsu := (rol64 Ase 2)
  let Esa := Bsa ^^^ ((~~~Bse) &&& Bsi)
  let Ese := (~~~Bse) ^^^ (Bsi ||| Bso)
  let Esi := Bsi ^^^ (Bso &&& Bsu)
  let Eso := Bso ^^^ (Bsu ||| Bsa)
  let Esu := Bsu ^^^ (Bsa &&& Bse)
  ⟨Eba, Ebe, Ebi, Ebo, Ebu, Ega, Ege, Egi, Ego, Egu, Eka, Eke, Eki, Eko, Eku, Ema, Eme, Emi, Emo, Emu, Esa, Ese, Esi, Eso, Esu⟩

theorem lcRoundPrep_E5 (rc : Lane) (A : V) (c : C5) : (lcRoundPrep rc A c).2.1 =
    E5 rc A (c.u ^^^ rol64 c.e 1) (c.a ^^^ rol64 c.i 1) (c.e ^^^ rol64 c.o 1) (c.i ^^^ rol64 c.u 1) (c.o ^^^ rol64 c.a 1) := rfl

/-- The registers are what a round on `i` expects. -/
structure Fits (i : V) (r : Regs) : Prop where
  a : r.rCa = (KeccakP1600.Opt64.prepareTheta i).a
  e : r.rCe = (KeccakP1600.Opt64.prepareTheta i).e
  u : r.rCu = (KeccakP1600.Opt64.prepareTheta i).u
  si : r.rDi = i.si
  so : r.rDo = i.so

theorem prepare_fits (i : V) : Fits i (prepare i) := ⟨rfl, rfl, rfl, rfl, rfl⟩

theorem prepareTheta_eq (v : Variant) (i : V) (r : Regs) (h : Fits i r) :
    let c := KeccakP1600.Opt64.prepareTheta i
    prepareTheta v i r = ⟨c.a, c.e, c.u, c.u ^^^ rol64 c.e 1, c.a ^^^ rol64 c.i 1, c.e ^^^ rol64 c.o 1, c.i ^^^ rol64 c.u 1, c.o ^^^ rol64 c.a 1,
      i.ba, i.ge⟩ := by
  obtain ⟨rCa, rCe, rCu, rDi, rDo⟩ := r
  obtain ⟨ha, he, hu, hi, ho⟩ := h
  simp only at ha he hu hi ho
  subst ha he hu hi ho
  have ei : i.bi ^^^ i.ki ^^^ (i.si ^^^ i.gi ^^^ i.mi) = (KeccakP1600.Opt64.prepareTheta i).i := by
    unfold KeccakP1600.Opt64.prepareTheta; dsimp only; ac_rfl
  have eo : i.bo ^^^ i.ko ^^^ (i.so ^^^ i.go ^^^ i.mo) = (KeccakP1600.Opt64.prepareTheta i).o := by
    unfold KeccakP1600.Opt64.prepareTheta; dsimp only; ac_rfl
  unfold prepareTheta
  dsimp only
  rw [ei, eo]
  simp only [rol_eq v 1 _ (by decide) (by decide)]
  rw [BitVec.xor_comm (rol64 _ 1), BitVec.xor_comm (rol64 _ 1), BitVec.xor_comm (rol64 _ 1), BitVec.xor_comm (rol64 _ 1), BitVec.xor_comm (rol64 _ 1)]

/-- The part of the round after theta. -/
def rest (v : Variant) (rc : Lane) (last : Bool) (i : V) (r1 : Regs1) : V × Regs :=
  let b := resultB v rc last i r1
  let g := resultG v last i r1 b
  let k := resultK v last i r1 g
  let m := resultM v last i r1 k
  let ⟨s, rDi, rDo⟩ := resultS v last i r1 m
  (⟨b.a, b.e, b.i, b.o, b.u, g.a, g.e, g.i, g.o, g.u, k.a, k.e, k.i, k.o, k.u, m.a, m.e, m.i, m.o, m.u, s.a, s.e, s.i, s.o, s.u⟩,
    ⟨s.rCa, s.rCe, s.rCu, rDi, rDo⟩)

theorem rest_eq (v : Variant) (rc : Lane) (last : Bool) (i : V) (Ca Ce Cu Da De Di Do Du : Lane) :
    (rest v rc last i ⟨Ca, Ce, Cu, Da, De, Di, Do, Du, i.ba, i.ge⟩).1 = E5 rc i Da De Di Do Du := by
  unfold rest resultB resultG resultK resultM resultS E5
  dsimp only
  simp only [rol_eq, Nat.reduceLT, Nat.lt_add_one]
  simp only [V.mk.injEq]
  refine ⟨?_, ?_, ?_, ?_, ?_, ?_, ?_, ?_, ?_, ?_, ?_, ?_, ?_, ?_, ?_, ?_, ?_, ?_, ?_, ?_, ?_, ?_, ?_, ?_, ?_⟩ <;> ac_rfl

theorem rest_fits (v : Variant) (rc : Lane) (i : V) (r1 : Regs1) : Fits (rest v rc false i r1).1 (rest v rc false i r1).2 := ⟨rfl, rfl, rfl, rfl, rfl⟩

/-- The configuration of the portable implementation that stores the state in the same way. -/
def lc : KeccakP1600.Opt64.Cfg := ⟨true, .u1⟩

/-- A round that is not the last one. -/
theorem round_eq (v : Variant) (rc : Lane) (i : V) (r : Regs) (h : Fits i r) :
    rep lc (mKeccakRound v rc false i r).1 = rstep rc (rep lc i) ∧ Fits (mKeccakRound v rc false i r).1 (mKeccakRound v rc false i r).2 := by
  have e : mKeccakRound v rc false i r = rest v rc false i (prepareTheta v i r) := rfl
  refine ⟨?_, by rw [e]; exact rest_fits v rc i _⟩
  have := (KeccakP1600.Opt64.prepRound lc rc i).1
  rw [← this, e, prepareTheta_eq v i r h, rest_eq]
  rfl

/-- The last round. -/
theorem lastRound_eq (v : Variant) (rc : Lane) (i : V) (r : Regs) (h : Fits i r) :
    rep lc (mKeccakRound v rc true i r).1 = rstep rc (rep lc i) := by
  have e : mKeccakRound v rc true i r = rest v rc true i (prepareTheta v i r) := rfl
  have := (KeccakP1600.Opt64.prepRound lc rc i).1
  rw [← this, e, prepareTheta_eq v i r h, rest_eq]
  rfl

/-- The area that line `i` of the 24 reads. -/
def M.src (m : M) (i : Nat) : V := if i % 2 = 0 then m.state else m.stack

theorem linesN_get : ∀ i : Fin 24, linesN[i.val]? = some ⟨i.val % 2 = 0, KeccakP1600.Ref.roundConstants.getD i.val 0, i.val = 23⟩ := by decide

theorem linesN_length : linesN.length = 24 := rfl

/-- The rounds from some line on. -/
theorem exec_eq (v : Variant) : ∀ (n : Nat), n < 24 → ∀ (m : M) (S : Lanes), rep lc (m.src (24 - (n + 1))) = S → Fits (m.src (24 - (n + 1))) m.r →
    rep lc ((linesN.drop (24 - (n + 1))).foldl (Line.exec v) m).state = run (24 - (n + 1)) (n + 1) S := by
  intro n
  induction n with
  | zero =>
    intro _ m S hS hf
    have e : linesN.drop (24 - (0 + 1)) = [⟨false, KeccakP1600.Ref.roundConstants.getD 23 0, true⟩] := by decide
    rw [e, List.foldl_cons, List.foldl_nil, ← hS]
    exact lastRound_eq v _ m.stack m.r hf
  | succ n ih =>
    intro hn m S hS hf
    have hi : 24 - (n + 1 + 1) < 24 := by omega
    have hg := linesN_get ⟨24 - (n + 1 + 1), hi⟩
    rw [List.getElem?_eq_getElem (by rw [linesN_length]; exact hi)] at hg
    rw [List.drop_eq_getElem_cons (by rw [linesN_length]; exact hi), Option.some.inj hg, List.foldl_cons]
    simp only
    have e1 : 24 - (n + 1 + 1) + 1 = 24 - (n + 1) := by omega
    have hl : (decide (24 - (n + 1 + 1) = 23)) = false := decide_eq_false (by omega)
    have hrun : run (24 - (n + 1 + 1)) (n + 1 + 1) S =
        run (24 - (n + 1)) (n + 1) (rstep (KeccakP1600.Ref.roundConstants.getD (24 - (n + 1 + 1)) 0) S) := by
      rw [← e1]; rfl
    rw [hl, e1, hrun]
    obtain ⟨h1, h2⟩ := round_eq v (KeccakP1600.Ref.roundConstants.getD (24 - (n + 1 + 1)) 0) _ _ hf
    rw [hS] at h1
    generalize hrc : KeccakP1600.Ref.roundConstants.getD (24 - (n + 1 + 1)) 0 = rc at h1 h2 ⊢
    by_cases hp : (24 - (n + 1 + 1)) % 2 = 0
    · have hp' : ¬ (24 - (n + 1)) % 2 = 0 := by omega
      have es : m.src (24 - (n + 1 + 1)) = m.state := if_pos hp
      rw [es] at h1 h2
      rw [decide_eq_true hp]
      apply ih (by omega)
      · unfold M.src; rw [if_neg hp']; exact h1
      · unfold M.src; rw [if_neg hp']; exact h2
    · have hp' : (24 - (n + 1)) % 2 = 0 := by omega
      have es : m.src (24 - (n + 1 + 1)) = m.stack := if_neg hp
      rw [es] at h1 h2
      rw [decide_eq_false hp]
      apply ih (by omega)
      · unfold M.src; rw [if_pos hp']; exact h1
      · unfold M.src; rw [if_pos hp']; exact h2

theorem lines24_eq : lines24 = linesN := by decide

theorem lines12_eq : lines12 = linesN.drop 12 := by decide

theorem table_eq : ∀ i : Fin 24, nroundsTable[i.val]? = some (23 - i.val) := by decide

end X64Asm
