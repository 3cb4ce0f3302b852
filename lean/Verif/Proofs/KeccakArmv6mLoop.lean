import Verif.Proofs.KeccakArmv6m
import Verif.Proofs.KeccakArm32Loop

/-! ## the permutation of the ARMv6-M assembly is that of the reference implementation -/

namespace KeccakP1600.Arm6

open Inplace32 (Half refRound roundC order1 order2 order3 loopFrom_add)
open XoodooArm (sub32)
open Arm32 (load_store r1 r2 r3 r4)

theorem roundConstants_eq : roundConstants = Arm32.roundConstants := rfl

theorem rc_eq : rc = Arm32.rc := rfl

/-! ### Preparing the state -/

theorem ldrf_lift (d : Nat) (i : Fin 50) (m : Arm32.M) (ok : Bool) :
    ldrf d i.val (lift m 0 32 ok) = lift (Arm32.ldr d i m) 0 32 ok := by
  rw [← ldrAt_lift]
  unfold ldrf
  by_cases h : 32 ≤ i.val
  · rw [if_pos h, show (lift m 0 32 ok).q + (i.val - 32) = i.val from show 32 + (i.val - 32) = i.val by omega]
  · rw [if_neg h, show (lift m 0 32 ok).p + i.val = i.val from Nat.zero_add _]

theorem strf_lift (d : Nat) (i : Fin 50) (m : Arm32.M) (ok : Bool) :
    strf d i.val (lift m 0 32 ok) = lift (Arm32.str d i m) 0 32 ok := by
  rw [← strAt_lift]
  unfold strf
  by_cases h : 32 ≤ i.val
  · rw [if_pos h, show (lift m 0 32 ok).q + (i.val - 32) = i.val from show 32 + (i.val - 32) = i.val by omega]
  · rw [if_neg h, show (lift m 0 32 ok).p + i.val = i.val from Nat.zero_add _]

theorem ldrf_word (d : Nat) (i : Fin 50) (k : Nat) (h : i.val + k < 50) (m : Arm32.M) (ok : Bool) :
    ldrf d (i.val + k) (lift m 0 32 ok) = lift (Arm32.ldr d (Arm32.word i k) m) 0 32 ok := by
  rw [← ldrf_lift, show (Arm32.word i k).val = i.val + k from Nat.mod_eq_of_lt h]

theorem strf_word (d : Nat) (i : Fin 50) (k : Nat) (h : i.val + k < 50) (m : Arm32.M) (ok : Bool) :
    strf d (i.val + k) (lift m 0 32 ok) = lift (Arm32.str d (Arm32.word i k) m) 0 32 ok := by
  rw [← strf_lift, show (Arm32.word i k).val = i.val + k from Nat.mod_eq_of_lt h]

theorem flip_lt (e : Nat) (h : e < 2) : e ^^^ 1 < 2 := by
  obtain rfl | rfl : e = 0 ∨ e = 1 := by omega
  · decide
  · decide

theorem SwapPI13_lift (a b c d : Fin 50) (e f g h : Nat) (ha : a.val < 49) (hb : b.val < 49) (hc : c.val < 49) (hd : d.val < 49)
    (he : e < 2) (hf : f < 2) (hg : g < 2) (hh : h < 2) (m : Arm32.M) (ok : Bool) :
    SwapPI13 a.val b.val c.val d.val e f g h (lift m 0 32 ok) = lift (Arm32.SwapPI13 a b c d e f g h m) 0 32 ok := by
  have he' := flip_lt e he
  have hf' := flip_lt f hf
  have hg' := flip_lt g hg
  have hh' := flip_lt h hh
  unfold SwapPI13
  dsimp only
  rw [ldrf_word _ _ _ (by omega), ldrf_word _ _ _ (by omega), ldrf_word _ _ _ (by omega), ldrf_word _ _ _ (by omega),
    strf_word _ _ _ (by omega), strf_word _ _ _ (by omega), ldrf_word _ _ _ (by omega), ldrf_word _ _ _ (by omega),
    strf_word _ _ _ (by omega), strf_word _ _ _ (by omega), ldrf_word _ _ _ (by omega), ldrf_word _ _ _ (by omega),
    strf_word _ _ _ (by omega), strf_word _ _ _ (by omega), strf_word _ _ _ (by omega), strf_word _ _ _ (by omega)]
  rfl

theorem SwapPI2_lift (a b c d : Fin 50) (ha : a.val < 49) (hb : b.val < 49) (hc : c.val < 49) (hd : d.val < 49)
    (m : Arm32.M) (ok : Bool) :
    SwapPI2 a.val b.val c.val d.val (lift m 0 32 ok) = lift (Arm32.SwapPI2 a b c d m) 0 32 ok := by
  unfold SwapPI2
  dsimp only
  rw [ldrf_word _ _ _ (by omega), ldrf_word _ _ _ (by omega), ldrf_word _ _ _ (by omega), ldrf_word _ _ _ (by omega),
    strf_word _ _ _ (by omega), strf_word _ _ _ (by omega), strf_word _ _ _ (by omega), strf_word _ _ _ (by omega),
    ldrf_word _ _ _ (by omega), ldrf_word _ _ _ (by omega), ldrf_word _ _ _ (by omega), ldrf_word _ _ _ (by omega),
    strf_word _ _ _ (by omega), strf_word _ _ _ (by omega), strf_word _ _ _ (by omega), strf_word _ _ _ (by omega)]
  rfl

theorem SwapEO_lift (a b : Fin 50) (m : Arm32.M) (ok : Bool) :
    SwapEO a.val b.val (lift m 0 32 ok) = lift (Arm32.SwapEO a b m) 0 32 ok := by
  unfold SwapEO
  dsimp only
  rw [ldrf_lift, ldrf_lift, strf_lift, strf_lift]
  rfl

/-- a program which acts on the state as one of ARMv7-M, `r5` being 32 words after `r0` -/
def Sw (f : M → M) (f' : Arm32.M → Arm32.M) : Prop := ∀ m ok, f (lift m 0 32 ok) = lift (f' m) 0 32 ok

theorem Sw.of {f : M → M} {f' : Arm32.M → Arm32.M} (h : ∀ m ok, f (lift m 0 32 ok) = lift (f' m) 0 32 ok) : Sw f f' := h

theorem Sw.comp {f g : M → M} {f' g' : Arm32.M → Arm32.M} (h : Sw f f') (k : Sw g g') :
    Sw (fun m => g (f m)) (fun m => g' (f' m)) := fun m ok => by
  show g (f _) = _
  rw [h, k]

theorem swap1_lift (m : Arm32.M) (ok : Bool) : swap1 (lift m 0 32 ok) = lift (Arm32.swap1 m) 0 32 ok := by
  have h := Sw.of (SwapPI13_lift Arm32.Aga0 Arm32.Aka0 Arm32.Asa0 Arm32.Ama0 1 0 1 0 (by decide) (by decide) (by decide) (by decide) (by decide) (by decide) (by decide) (by decide))
  have h := h.comp (Sw.of (SwapPI13_lift Arm32.Abe0 Arm32.Age0 Arm32.Ame0 Arm32.Ake0 0 1 0 1 (by decide) (by decide) (by decide) (by decide) (by decide) (by decide) (by decide) (by decide)))
  have h := h.comp (Sw.of (SwapPI13_lift Arm32.Abi0 Arm32.Aki0 Arm32.Agi0 Arm32.Asi0 1 0 1 0 (by decide) (by decide) (by decide) (by decide) (by decide) (by decide) (by decide) (by decide)))
  have h := h.comp (Sw.of (SwapEO_lift Arm32.Ami0 Arm32.Ami1))
  have h := h.comp (Sw.of (SwapPI13_lift Arm32.Abo0 Arm32.Amo0 Arm32.Aso0 Arm32.Ago0 1 0 1 0 (by decide) (by decide) (by decide) (by decide) (by decide) (by decide) (by decide) (by decide)))
  have h := h.comp (Sw.of (SwapEO_lift Arm32.Ako0 Arm32.Ako1))
  have h := h.comp (Sw.of (SwapPI13_lift Arm32.Abu0 Arm32.Asu0 Arm32.Aku0 Arm32.Amu0 0 1 0 1 (by decide) (by decide) (by decide) (by decide) (by decide) (by decide) (by decide) (by decide)))
  exact h m ok

theorem swap2_lift (m : Arm32.M) (ok : Bool) : swap2 (lift m 0 32 ok) = lift (Arm32.swap2 m) 0 32 ok := by
  have h := Sw.of (SwapPI2_lift Arm32.Aga0 Arm32.Asa0 Arm32.Aka0 Arm32.Ama0 (by decide) (by decide) (by decide) (by decide))
  have h := h.comp (Sw.of (SwapPI2_lift Arm32.Abe0 Arm32.Ame0 Arm32.Age0 Arm32.Ake0 (by decide) (by decide) (by decide) (by decide)))
  have h := h.comp (Sw.of (SwapPI2_lift Arm32.Abi0 Arm32.Agi0 Arm32.Aki0 Arm32.Asi0 (by decide) (by decide) (by decide) (by decide)))
  have h := h.comp (Sw.of (SwapPI2_lift Arm32.Abo0 Arm32.Aso0 Arm32.Ago0 Arm32.Amo0 (by decide) (by decide) (by decide) (by decide)))
  have h := h.comp (Sw.of (SwapPI2_lift Arm32.Abu0 Arm32.Aku0 Arm32.Amu0 Arm32.Asu0 (by decide) (by decide) (by decide) (by decide)))
  exact h m ok

theorem swap3_lift (m : Arm32.M) (ok : Bool) : swap3 (lift m 0 32 ok) = lift (Arm32.swap3 m) 0 32 ok := by
  have h := Sw.of (SwapPI13_lift Arm32.Aga0 Arm32.Ama0 Arm32.Asa0 Arm32.Aka0 0 1 0 1 (by decide) (by decide) (by decide) (by decide) (by decide) (by decide) (by decide) (by decide))
  have h := h.comp (Sw.of (SwapPI13_lift Arm32.Abe0 Arm32.Ake0 Arm32.Ame0 Arm32.Age0 1 0 1 0 (by decide) (by decide) (by decide) (by decide) (by decide) (by decide) (by decide) (by decide)))
  have h := h.comp (Sw.of (SwapPI13_lift Arm32.Abi0 Arm32.Asi0 Arm32.Agi0 Arm32.Aki0 0 1 0 1 (by decide) (by decide) (by decide) (by decide) (by decide) (by decide) (by decide) (by decide)))
  have h := h.comp (Sw.of (SwapEO_lift Arm32.Ami0 Arm32.Ami1))
  have h := h.comp (Sw.of (SwapPI13_lift Arm32.Abo0 Arm32.Ago0 Arm32.Aso0 Arm32.Amo0 0 1 0 1 (by decide) (by decide) (by decide) (by decide) (by decide) (by decide) (by decide) (by decide)))
  have h := h.comp (Sw.of (SwapEO_lift Arm32.Ako0 Arm32.Ako1))
  have h := h.comp (Sw.of (SwapPI13_lift Arm32.Abu0 Arm32.Amu0 Arm32.Aku0 Arm32.Asu0 1 0 1 0 (by decide) (by decide) (by decide) (by decide) (by decide) (by decide) (by decide) (by decide)))
  exact h m ok

/-! ### The rounds -/

/-- a state of the machine with the pointer at the beginning of the state, and no access outside of it -/
def At (m : M) : Prop := m.p = 0 ∧ m.ok = true

theorem step_eq (f : Word → Word → M → M) (g : Word → Word → Half → Half) (lin lout : Half → Half)
    (hf : ∀ c0 c1 (m : Arm32.M) q ok, ∃ m' : Arm32.M, f c0 c1 (lift m 0 q ok) = lift m' 0 q ok ∧
      m'.A = Inplace32.store (g c0 c1 (Inplace32.load m.A)))
    (h : ∀ c0 c1 S, Inplace32.store (lout (g c0 c1 S)) = roundC c0 c1 (Inplace32.store (lin S))) (m : M) (hm : At m) (i t off : Nat) (hi : i < 24)
    (ht : t + off = 8 * i) :
    ∃ m', step f t off m = some m' ∧ At m' ∧
      Inplace32.store (lout (Inplace32.load m'.A)) = refRound i (Inplace32.store (lin (Inplace32.load m.A))) := by
  have h1 := Arm32.rc_fst ⟨i, hi⟩
  have h2 := Arm32.rc_snd ⟨i, hi⟩
  obtain ⟨r, A, s, p, q, ok⟩ := m
  obtain ⟨rfl, rfl⟩ : p = 0 ∧ ok = true := hm
  obtain ⟨m', e, hA⟩ := hf (Ref32.roundConstants.getD i (0, 0)).1 (Ref32.roundConstants.getD i (0, 0)).2 ⟨r, A, s⟩ q true
  refine ⟨lift m' 0 q true, ?_, ⟨rfl, rfl⟩, ?_⟩
  · rw [step, ht, show t + (off + 4) = 8 * i + 4 by omega, rc_eq, h1, h2]
    simp only [Option.bind_eq_bind, Option.bind_some]
    rw [show (⟨r, A, s, 0, q, true⟩ : M) = lift ⟨r, A, s⟩ 0 q true from rfl, e]
    rfl
  · show Inplace32.store (lout (Inplace32.load m'.A)) = _
    rw [hA, load_store]
    exact h _ _ _

theorem rounds0_eq (m : M) (hm : At m) (i t : Nat) (hi : i + 4 ≤ 24) (ht : t = 8 * i) : ∃ m', rounds 0 t m = some m' ∧
    At m' ∧ m'.A = loopFrom refRound i 4 m.A := by
  obtain ⟨m1, e1, a1, h1⟩ := step_eq round0 _ id order1 round0_lift Inplace32.round0_eq m hm i t 0 (by omega) (by omega)
  obtain ⟨m2, e2, a2, h2⟩ := step_eq round1 _ order1 order2 round1_lift Inplace32.round1_eq m1 a1 (i + 1) t 8 (by omega) (by omega)
  obtain ⟨m3, e3, a3, h3⟩ := step_eq round2 _ order2 order3 round2_lift Inplace32.round2_eq m2 a2 (i + 2) t 16 (by omega) (by omega)
  obtain ⟨m4, e4, a4, h4⟩ := step_eq round3 _ order3 id round3_lift Inplace32.round3_eq m3 a3 (i + 3) t 24 (by omega) (by omega)
  refine ⟨m4, ?_, a4, ?_⟩
  · simp only [rounds, Option.bind_eq_bind]
    rw [e1, Option.bind_some, e2, Option.bind_some, e3, Option.bind_some, e4]
  · simp only [loopFrom, id_eq, Inplace32.store_load] at *
    rw [h4, h3, h2, h1]

theorem rounds3_eq (m : M) (hm : At m) (i t : Nat) (hi : i + 3 ≤ 24) (ht : t + 8 = 8 * i) : ∃ m', rounds 3 t m = some m' ∧
    At m' ∧ m'.A = loopFrom refRound i 3 (Inplace32.store (order1 (Inplace32.load m.A))) := by
  obtain ⟨m2, e2, a2, h2⟩ := step_eq round1 _ order1 order2 round1_lift Inplace32.round1_eq m hm i t 8 (by omega) (by omega)
  obtain ⟨m3, e3, a3, h3⟩ := step_eq round2 _ order2 order3 round2_lift Inplace32.round2_eq m2 a2 (i + 1) t 16 (by omega) (by omega)
  obtain ⟨m4, e4, a4, h4⟩ := step_eq round3 _ order3 id round3_lift Inplace32.round3_eq m3 a3 (i + 2) t 24 (by omega) (by omega)
  refine ⟨m4, ?_, a4, ?_⟩
  · simp only [rounds, Option.bind_eq_bind]
    rw [e2, Option.bind_some, e3, Option.bind_some, e4]
  · simp only [loopFrom, id_eq, Inplace32.store_load] at *
    rw [h4, h3, h2]

theorem rounds2_eq (m : M) (hm : At m) (i t : Nat) (hi : i + 2 ≤ 24) (ht : t + 16 = 8 * i) : ∃ m', rounds 2 t m = some m' ∧
    At m' ∧ m'.A = loopFrom refRound i 2 (Inplace32.store (order2 (Inplace32.load m.A))) := by
  obtain ⟨m3, e3, a3, h3⟩ := step_eq round2 _ order2 order3 round2_lift Inplace32.round2_eq m hm i t 16 (by omega) (by omega)
  obtain ⟨m4, e4, a4, h4⟩ := step_eq round3 _ order3 id round3_lift Inplace32.round3_eq m3 a3 (i + 1) t 24 (by omega) (by omega)
  refine ⟨m4, ?_, a4, ?_⟩
  · simp only [rounds, Option.bind_eq_bind]
    rw [e3, Option.bind_some, e4]
  · simp only [loopFrom, id_eq, Inplace32.store_load] at *
    rw [h4, h3]

theorem rounds1_eq (m : M) (hm : At m) (i t : Nat) (hi : i + 1 ≤ 24) (ht : t + 24 = 8 * i) : ∃ m', rounds 1 t m = some m' ∧
    At m' ∧ m'.A = loopFrom refRound i 1 (Inplace32.store (order3 (Inplace32.load m.A))) := by
  obtain ⟨m4, e4, a4, h4⟩ := step_eq round3 _ order3 id round3_lift Inplace32.round3_eq m hm i t 24 (by omega) (by omega)
  refine ⟨m4, ?_, a4, ?_⟩
  · exact e4
  · simp only [loopFrom, id_eq, Inplace32.store_load] at *
    rw [h4]

/-- the rest of the loop, once a number of rounds that is a multiple of four remains -/
theorem loop_tail : ∀ (k fuel i : Nat) (m : M), At m → k < fuel → i + 4 * (k + 1) = 24 → ∃ m',
    permuteLoop fuel 0 (8 * i) m = some m' ∧ At m' ∧ m'.A = loopFrom refRound i (4 * (k + 1)) m.A := by
  intro k
  induction k with
  | zero =>
    intro fuel i m hm hf hi
    obtain ⟨fuel, rfl⟩ : ∃ k, fuel = k + 1 := ⟨fuel - 1, by omega⟩
    obtain ⟨m', e, a, h⟩ := rounds0_eq m hm i (8 * i) (by omega) rfl
    refine ⟨m', ?_, a, h⟩
    simp only [permuteLoop, Option.bind_eq_bind]
    rw [e, Option.bind_some, show 8 * i + 32 = 192 by omega, rc_eq, Arm32.rc_end]
    rfl
  | succ k ih =>
    intro fuel i m hm hf hi
    obtain ⟨fuel, rfl⟩ : ∃ k, fuel = k + 1 := ⟨fuel - 1, by omega⟩
    obtain ⟨m', e, a, h⟩ := rounds0_eq m hm i (8 * i) (by omega) rfl
    obtain ⟨m'', e', a', h'⟩ := ih fuel (i + 4) m' a (by omega) (by omega)
    obtain ⟨w, hw, hne⟩ := Arm32.rc_ne ⟨i + 4, by omega⟩
    simp only at hw
    refine ⟨m'', ?_, a', ?_⟩
    · simp only [permuteLoop, Option.bind_eq_bind]
      rw [e, Option.bind_some, show 8 * i + 32 = 8 * (i + 4) by omega, rc_eq, hw, Option.bind_some, if_neg hne, e']
    · rw [h', h, show 4 * (k + 1 + 1) = 4 + 4 * (k + 1) by omega, loopFrom_add]

/-- the loop, when its first iteration does `r` rounds -/
theorem loop_eq (fuel label r i t : Nat) (m m' : M) (A : Words) (hf : 6 < fuel) (hr : i + r ≤ 24) (h4 : (i + r) % 4 = 0)
    (ht : t + 32 = 8 * (i + r)) (e : rounds label t m = some m') (a : At m') (h : m'.A = loopFrom refRound i r A) :
    ∃ m'', permuteLoop fuel label t m = some m'' ∧ At m'' ∧ m''.A = loopFrom refRound i (24 - i) A := by
  obtain ⟨fuel, rfl⟩ : ∃ k, fuel = k + 1 := ⟨fuel - 1, by omega⟩
  by_cases hend : i + r = 24
  · refine ⟨m', ?_, a, by rw [h]; congr 1; omega⟩
    simp only [permuteLoop, Option.bind_eq_bind]
    rw [e, Option.bind_some, show t + 32 = 192 by omega, rc_eq, Arm32.rc_end]
    rfl
  · obtain ⟨m'', e', a', h'⟩ := loop_tail (6 - (i + r) / 4 - 1) fuel (i + r) m' a (by omega) (by omega)
    obtain ⟨w, hw, hne⟩ := Arm32.rc_ne ⟨i + r, by omega⟩
    simp only at hw
    refine ⟨m'', ?_, a', ?_⟩
    · simp only [permuteLoop, Option.bind_eq_bind]
      rw [e, Option.bind_some, ht, rc_eq, hw, Option.bind_some, if_neg hne, ← e']
    · rw [h', h, ← loopFrom_add]
      congr 1
      omega

theorem permute_eq (m : M) (hm : At m) (nr : Nat) (h0 : 0 < nr) (h : nr ≤ 24) (h4 : nr % 4 = 0) :
    ∃ m', permute (8 * (24 - nr)) m = some m' ∧ At m' ∧ m'.A = Ref32.permuteNrounds nr m.A := by
  obtain ⟨m', e, a, h'⟩ := rounds0_eq m hm (24 - nr) (8 * (24 - nr)) (by omega) rfl
  obtain ⟨m'', e', a', hA⟩ := loop_eq (2 ^ 32) 0 4 (24 - nr) (8 * (24 - nr)) m m' m.A (by decide) (by omega) (by omega) (by omega) e a h'
  refine ⟨m'', e', a', ?_⟩
  rw [hA, show 24 - (24 - nr) = nr by omega]
  rfl

theorem bits : ∀ n : Fin 25, (BitVec.ofNat 32 n.val <<< 30 = (0 : Word) ↔ n.val % 4 = 0) ∧
    (((BitVec.ofNat 32 n.val : Word).getLsbD 1 = false) ↔ n.val % 4 < 2) ∧
    (((BitVec.ofNat 32 n.val <<< 31 : Word).getLsbD 31 = false) ↔ n.val % 2 = 0) := by decide +kernel

/-- with `r5` set, the state is that of ARMv7-M -/
theorem setR5_eq (m : M) (hm : At m) : setR5 m = lift ⟨m.r, m.A, m.s⟩ 0 32 true := by
  obtain ⟨r, A, s, p, q, ok⟩ := m
  obtain ⟨rfl, rfl⟩ : p = 0 ∧ ok = true := hm
  unfold setR5
  rw [show XoodooArm.add32 (⟨r, A, s, 0, q, true⟩ : M).p 32 = 32 from show XoodooArm.add32 0 32 = 32 by decide]
  rfl

theorem permuteNrounds_eq (m : M) (hm : At m) (nr : Nat) (h0 : 0 < nr) (h : nr ≤ 24) :
    ∃ m', permuteNrounds m nr = some m' ∧ At m' ∧ m'.A = Ref32.permuteNrounds nr m.A := by
  obtain ⟨b0, b1, b2⟩ := bits ⟨nr, by omega⟩
  simp only at b0 b1 b2
  have e24 : 24 - (24 - nr) = nr := by omega
  have hn : ∀ x, x ≤ 192 → sub32 192 (x % 2 ^ 32) = 192 - x := fun x hx => by
    rw [sub32]; omega
  have hn0 : ∀ x, x ≤ 160 → sub32 160 (x % 2 ^ 32) = 160 - x := fun x hx => by
    rw [sub32]; omega
  unfold permuteNrounds
  simp only
  by_cases h4 : nr % 4 = 0
  · rw [if_pos (b0.mpr h4), roundConstants0Mod4, hn _ (by omega), show 192 - nr * 8 = 8 * (24 - nr) by omega]
    exact permute_eq m hm nr h0 h h4
  · rw [if_neg (fun hc => h4 (b0.mp hc)), roundConstants0, setR5_eq m hm]
    have hle : nr / 4 * 32 ≤ 160 := by omega
    rw [hn0 _ hle]
    by_cases hc : nr % 4 < 2
    · rw [if_pos (b1.mpr hc), swap1_lift]
      obtain ⟨m', e, a, h'⟩ := rounds1_eq (lift (Arm32.swap1 ⟨m.r, m.A, m.s⟩) 0 32 true) ⟨rfl, rfl⟩ (24 - nr) (160 - nr / 4 * 32)
        (by omega) (by omega)
      rw [show (lift (Arm32.swap1 ⟨m.r, m.A, m.s⟩) 0 32 true).A = (Arm32.swap1 ⟨m.r, m.A, m.s⟩).A from rfl, Arm32.swap1_A,
        Inplace32.prepare1_eq] at h'
      obtain ⟨m'', e', a', hA⟩ := loop_eq (2 ^ 32) 1 1 (24 - nr) _ _ m' _ (by decide) (by omega) (by omega) (by omega) e a h'
      exact ⟨m'', e', a', by rw [hA, e24]; rfl⟩
    · rw [if_neg (fun hx => hc (b1.mp hx))]
      by_cases h2 : nr % 2 = 0
      · rw [if_pos (b2.mpr h2), swap2_lift]
        obtain ⟨m', e, a, h'⟩ := rounds2_eq (lift (Arm32.swap2 ⟨m.r, m.A, m.s⟩) 0 32 true) ⟨rfl, rfl⟩ (24 - nr) (160 - nr / 4 * 32)
          (by omega) (by omega)
        rw [show (lift (Arm32.swap2 ⟨m.r, m.A, m.s⟩) 0 32 true).A = (Arm32.swap2 ⟨m.r, m.A, m.s⟩).A from rfl, Arm32.swap2_A,
          Inplace32.prepare2_eq] at h'
        obtain ⟨m'', e', a', hA⟩ := loop_eq (2 ^ 32) 2 2 (24 - nr) _ _ m' _ (by decide) (by omega) (by omega) (by omega) e a h'
        exact ⟨m'', e', a', by rw [hA, e24]; rfl⟩
      · rw [if_neg (fun hx => h2 (b2.mp hx)), swap3_lift]
        obtain ⟨m', e, a, h'⟩ := rounds3_eq (lift (Arm32.swap3 ⟨m.r, m.A, m.s⟩) 0 32 true) ⟨rfl, rfl⟩ (24 - nr) (160 - nr / 4 * 32)
          (by omega) (by omega)
        rw [show (lift (Arm32.swap3 ⟨m.r, m.A, m.s⟩) 0 32 true).A = (Arm32.swap3 ⟨m.r, m.A, m.s⟩).A from rfl, Arm32.swap3_A,
          Inplace32.prepare3_eq] at h'
        obtain ⟨m'', e', a', hA⟩ := loop_eq (2 ^ 32) 3 3 (24 - nr) _ _ m' _ (by decide) (by omega) (by omega) (by omega) e a h'
        exact ⟨m'', e', a', by rw [hA, e24]; rfl⟩

/-- with no rounds, the constants are read past the end of the table -/
theorem permuteNrounds_zero (m : M) : permuteNrounds m 0 = none := by
  have h : ∀ fuel, 0 < fuel → permuteLoop fuel 0 192 m = none := by
    intro fuel hf
    obtain ⟨fuel, rfl⟩ : ∃ k, fuel = k + 1 := ⟨fuel - 1, by omega⟩
    simp only [permuteLoop, rounds, step]
    rw [show rc (192 + (0 + 4)) = none by decide +kernel, show rc (192 + 0) = some 0xFF by decide +kernel]
    rfl
  rw [permuteNrounds]
  simp only
  rw [if_pos (by decide), permute, show sub32 roundConstants0Mod4 (0 * 8 % 2 ^ 32) = 192 by decide]
  exact h (2 ^ 32) (by decide)

end KeccakP1600.Arm6
