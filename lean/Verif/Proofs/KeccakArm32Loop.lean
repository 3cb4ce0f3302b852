import Verif.Proofs.KeccakArm32

/-! ## the permutation of the 32-bit ARM assembly is that of the reference implementation -/

namespace KeccakP1600.Arm32

open Inplace32 (load store Half refRound roundC order1 order2 order3 loopFrom_add)
open XoodooArm (sub32)

theorem load_store (S : Half) : load (store S) = S := by cases S; rfl

theorem rc_fst : ∀ i : Fin 24, rc (8 * i.val) = some (Ref32.roundConstants.getD i.val (0, 0)).1 := by decide +kernel
theorem rc_snd : ∀ i : Fin 24, rc (8 * i.val + 4) = some (Ref32.roundConstants.getD i.val (0, 0)).2 := by decide +kernel
theorem rc_end : rc 192 = some 0xFF := by decide +kernel

theorem rc_ne : ∀ i : Fin 24, ∃ w, rc (8 * i.val) = some w ∧ w ≠ 0xFF := by
  intro i
  refine ⟨_, rc_fst i, ?_⟩
  revert i
  decide +kernel

theorem step_eq (f : Word → Word → M → M) (g : Word → Word → Half → Half) (lin lout : Half → Half)
    (hf : ∀ c0 c1 m, (f c0 c1 m).A = store (g c0 c1 (load m.A)))
    (h : ∀ c0 c1 S, store (lout (g c0 c1 S)) = roundC c0 c1 (store (lin S))) (m : M) (i t off : Nat) (hi : i < 24)
    (ht : t + off = 8 * i) :
    ∃ m', step f t off m = some m' ∧ store (lout (load m'.A)) = refRound i (store (lin (load m.A))) := by
  have h1 := rc_fst ⟨i, hi⟩
  have h2 := rc_snd ⟨i, hi⟩
  refine ⟨f (Ref32.roundConstants.getD i (0, 0)).1 (Ref32.roundConstants.getD i (0, 0)).2 m, ?_, ?_⟩
  · rw [step, ht, show t + (off + 4) = 8 * i + 4 by omega, h1, h2]
    rfl
  · rw [hf, load_store]
    exact h _ _ _

theorem rounds0_eq (m : M) (i t : Nat) (hi : i + 4 ≤ 24) (ht : t = 8 * i) : ∃ m', rounds 0 t m = some m' ∧
    m'.A = loopFrom refRound i 4 m.A := by
  obtain ⟨m1, e1, h1⟩ := step_eq round0 _ id order1 round0_A Inplace32.round0_eq m i t 0 (by omega) (by omega)
  obtain ⟨m2, e2, h2⟩ := step_eq round1 _ order1 order2 round1_A Inplace32.round1_eq m1 (i + 1) t 8 (by omega) (by omega)
  obtain ⟨m3, e3, h3⟩ := step_eq round2 _ order2 order3 round2_A Inplace32.round2_eq m2 (i + 2) t 16 (by omega) (by omega)
  obtain ⟨m4, e4, h4⟩ := step_eq round3 _ order3 id round3_A Inplace32.round3_eq m3 (i + 3) t 24 (by omega) (by omega)
  refine ⟨m4, ?_, ?_⟩
  · simp only [rounds, Option.bind_eq_bind]
    rw [e1, Option.bind_some, e2, Option.bind_some, e3, Option.bind_some, e4]
  · simp only [loopFrom, id_eq, Inplace32.store_load] at *
    rw [h4, h3, h2, h1]

theorem rounds3_eq (m : M) (i t : Nat) (hi : i + 3 ≤ 24) (ht : t + 8 = 8 * i) : ∃ m', rounds 3 t m = some m' ∧
    m'.A = loopFrom refRound i 3 (store (order1 (load m.A))) := by
  obtain ⟨m2, e2, h2⟩ := step_eq round1 _ order1 order2 round1_A Inplace32.round1_eq m i t 8 (by omega) (by omega)
  obtain ⟨m3, e3, h3⟩ := step_eq round2 _ order2 order3 round2_A Inplace32.round2_eq m2 (i + 1) t 16 (by omega) (by omega)
  obtain ⟨m4, e4, h4⟩ := step_eq round3 _ order3 id round3_A Inplace32.round3_eq m3 (i + 2) t 24 (by omega) (by omega)
  refine ⟨m4, ?_, ?_⟩
  · simp only [rounds, Option.bind_eq_bind]
    rw [e2, Option.bind_some, e3, Option.bind_some, e4]
  · simp only [loopFrom, id_eq, Inplace32.store_load] at *
    rw [h4, h3, h2]

theorem rounds2_eq (m : M) (i t : Nat) (hi : i + 2 ≤ 24) (ht : t + 16 = 8 * i) : ∃ m', rounds 2 t m = some m' ∧
    m'.A = loopFrom refRound i 2 (store (order2 (load m.A))) := by
  obtain ⟨m3, e3, h3⟩ := step_eq round2 _ order2 order3 round2_A Inplace32.round2_eq m i t 16 (by omega) (by omega)
  obtain ⟨m4, e4, h4⟩ := step_eq round3 _ order3 id round3_A Inplace32.round3_eq m3 (i + 1) t 24 (by omega) (by omega)
  refine ⟨m4, ?_, ?_⟩
  · simp only [rounds, Option.bind_eq_bind]
    rw [e3, Option.bind_some, e4]
  · simp only [loopFrom, id_eq, Inplace32.store_load] at *
    rw [h4, h3]

theorem rounds1_eq (m : M) (i t : Nat) (hi : i + 1 ≤ 24) (ht : t + 24 = 8 * i) : ∃ m', rounds 1 t m = some m' ∧
    m'.A = loopFrom refRound i 1 (store (order3 (load m.A))) := by
  obtain ⟨m4, e4, h4⟩ := step_eq round3 _ order3 id round3_A Inplace32.round3_eq m i t 24 (by omega) (by omega)
  refine ⟨m4, e4, ?_⟩
  simp only [loopFrom, id_eq, Inplace32.store_load] at *
  rw [h4]

/-- the rest of the loop, once a number of rounds that is a multiple of four remains -/
theorem loop_tail : ∀ (k fuel i : Nat) (m : M), k < fuel → i + 4 * (k + 1) = 24 → ∃ m',
    permuteLoop fuel 0 (8 * i) m = some m' ∧ m'.A = loopFrom refRound i (4 * (k + 1)) m.A := by
  intro k
  induction k with
  | zero =>
    intro fuel i m hf hi
    obtain ⟨fuel, rfl⟩ : ∃ k, fuel = k + 1 := ⟨fuel - 1, by omega⟩
    obtain ⟨m', e, h⟩ := rounds0_eq m i (8 * i) (by omega) rfl
    refine ⟨m', ?_, h⟩
    simp only [permuteLoop, Option.bind_eq_bind]
    rw [e, Option.bind_some, show 8 * i + 32 = 192 by omega, rc_end]
    rfl
  | succ k ih =>
    intro fuel i m hf hi
    obtain ⟨fuel, rfl⟩ : ∃ k, fuel = k + 1 := ⟨fuel - 1, by omega⟩
    obtain ⟨m', e, h⟩ := rounds0_eq m i (8 * i) (by omega) rfl
    obtain ⟨m'', e', h'⟩ := ih fuel (i + 4) m' (by omega) (by omega)
    obtain ⟨w, hw, hne⟩ := rc_ne ⟨i + 4, by omega⟩
    simp only at hw
    refine ⟨m'', ?_, ?_⟩
    · simp only [permuteLoop, Option.bind_eq_bind]
      rw [e, Option.bind_some, show 8 * i + 32 = 8 * (i + 4) by omega, hw, Option.bind_some, if_pos hne, e']
    · rw [h', h, show 4 * (k + 1 + 1) = 4 + 4 * (k + 1) by omega, loopFrom_add]

/-- the loop, when its first iteration does `r` rounds -/
theorem loop_eq (fuel label r i t : Nat) (m m' : M) (A : Words) (hf : 6 < fuel) (hr : i + r ≤ 24) (h4 : (i + r) % 4 = 0)
    (ht : t + 32 = 8 * (i + r)) (e : rounds label t m = some m') (h : m'.A = loopFrom refRound i r A) :
    ∃ m'', permuteLoop fuel label t m = some m'' ∧ m''.A = loopFrom refRound i (24 - i) A := by
  obtain ⟨fuel, rfl⟩ : ∃ k, fuel = k + 1 := ⟨fuel - 1, by omega⟩
  by_cases hend : i + r = 24
  · refine ⟨m', ?_, by rw [h]; congr 1; omega⟩
    simp only [permuteLoop, Option.bind_eq_bind]
    rw [e, Option.bind_some, show t + 32 = 192 by omega, rc_end]
    rfl
  · obtain ⟨m'', e', h'⟩ := loop_tail (6 - (i + r) / 4 - 1) fuel (i + r) m' (by omega) (by omega)
    obtain ⟨w, hw, hne⟩ := rc_ne ⟨i + r, by omega⟩
    simp only at hw
    refine ⟨m'', ?_, ?_⟩
    · simp only [permuteLoop, Option.bind_eq_bind]
      rw [e, Option.bind_some, ht, hw, Option.bind_some, if_pos hne, ← e']
    · rw [h', h, ← loopFrom_add]
      congr 1
      omega

theorem SwapPI13_A (a b c d : Fin 50) (e f g h : Nat) (m : M) :
    (SwapPI13 a b c d e f g h m).A = Inplace32.swapPI13 a.val b.val c.val d.val e f g h m.A := rfl

theorem SwapPI2_A (a b c d : Fin 50) (m : M) :
    (SwapPI2 a b c d m).A = Inplace32.swapPI2 a.val b.val c.val d.val m.A := rfl

theorem SwapEO_A (a b : Fin 50) (h : a ≠ b) (m : M) : (SwapEO a b m).A = Inplace32.swapEO a b m.A := by
  show put (put m.A b (m.A a)) a (m.A b) = put (put m.A a (m.A b)) b (m.A a)
  funext j
  simp only [put]
  by_cases h1 : j = a
  · by_cases h2 : j = b
    · exact absurd (h1.symm.trans h2) h
    · simp [h1, h]
  · simp [h1]

theorem swap1_A (m : M) : (swap1 m).A = Inplace32.prepare 1 m.A := by
  simp only [swap1, SwapPI13_A]
  rw [SwapEO_A _ _ (by decide), SwapPI13_A, SwapEO_A _ _ (by decide)]
  simp only [SwapPI13_A]
  rfl

theorem swap2_A (m : M) : (swap2 m).A = Inplace32.prepare 2 m.A := by
  simp only [swap2, SwapPI2_A]
  rfl

theorem swap3_A (m : M) : (swap3 m).A = Inplace32.prepare 3 m.A := by
  simp only [swap3, SwapPI13_A]
  rw [SwapEO_A _ _ (by decide), SwapPI13_A, SwapEO_A _ _ (by decide)]
  simp only [SwapPI13_A]
  rfl

theorem permute_eq (m : M) (nr : Nat) (h0 : 0 < nr) (h : nr ≤ 24) (h4 : nr % 4 = 0) :
    ∃ m', permute (8 * (24 - nr)) m = some m' ∧ m'.A = Ref32.permuteNrounds nr m.A := by
  obtain ⟨m', e, h'⟩ := rounds0_eq m (24 - nr) (8 * (24 - nr)) (by omega) rfl
  obtain ⟨m'', e', hA⟩ := loop_eq (2 ^ 32) 0 4 (24 - nr) (8 * (24 - nr)) m m' m.A (by decide) (by omega) (by omega) (by omega) e h'
  refine ⟨m'', e', ?_⟩
  rw [hA, show 24 - (24 - nr) = nr by omega]
  rfl

theorem bits : ∀ n : Fin 25, (BitVec.ofNat 32 n.val <<< 30 = (0 : Word) ↔ n.val % 4 = 0) ∧
    (((BitVec.ofNat 32 n.val <<< 30 : Word).getLsbD 31 = false) ↔ n.val % 4 < 2) ∧
    (((BitVec.ofNat 32 n.val <<< 30 <<< 1 : Word).getLsbD 31 = false) ↔ n.val % 2 = 0) := by decide +kernel

theorem permuteNrounds_eq (m : M) (nr : Nat) (h0 : 0 < nr) (h : nr ≤ 24) :
    ∃ m', permuteNrounds m nr = some m' ∧ m'.A = Ref32.permuteNrounds nr m.A := by
  obtain ⟨b0, b1, b2⟩ := bits ⟨nr, by omega⟩
  simp only at b0 b1 b2
  have e24 : 24 - (24 - nr) = nr := by omega
  have hn : ∀ x, x ≤ 192 → sub32 192 (x % 2 ^ 32) = 192 - x := fun x hx => by
    rw [sub32]; omega
  have hn0 : ∀ x, x ≤ 160 → sub32 160 (x % 2 ^ 32) = 160 - x := fun x hx => by
    rw [sub32]; omega
  unfold permuteNrounds
  simp only
  by_cases h4 : nr % 4 = 0
  · rw [if_pos (b0.mpr h4), roundConstants0Mod4, hn _ (by omega), show 192 - nr * 8 = 8 * (24 - nr) by omega]
    exact permute_eq m nr h0 h h4
  · rw [if_neg (fun hc => h4 (b0.mp hc)), roundConstants0]
    have hle : nr / 4 * 32 ≤ 160 := by omega
    rw [hn0 _ hle]
    by_cases hc : nr % 4 < 2
    · rw [if_pos (b1.mpr hc)]
      obtain ⟨m', e, h'⟩ := rounds1_eq (swap1 m) (24 - nr) (160 - nr / 4 * 32) (by omega) (by omega)
      rw [swap1_A, Inplace32.prepare1_eq] at h'
      obtain ⟨m'', e', hA⟩ := loop_eq (2 ^ 32) 1 1 (24 - nr) _ _ m' _ (by decide) (by omega) (by omega) (by omega) e h'
      exact ⟨m'', e', by rw [hA, e24]; rfl⟩
    · rw [if_neg (fun hx => hc (b1.mp hx))]
      by_cases h2 : nr % 2 = 0
      · rw [if_pos (b2.mpr h2)]
        obtain ⟨m', e, h'⟩ := rounds2_eq (swap2 m) (24 - nr) (160 - nr / 4 * 32) (by omega) (by omega)
        rw [swap2_A, Inplace32.prepare2_eq] at h'
        obtain ⟨m'', e', hA⟩ := loop_eq (2 ^ 32) 2 2 (24 - nr) _ _ m' _ (by decide) (by omega) (by omega) (by omega) e h'
        exact ⟨m'', e', by rw [hA, e24]; rfl⟩
      · rw [if_neg (fun hx => h2 (b2.mp hx))]
        obtain ⟨m', e, h'⟩ := rounds3_eq (swap3 m) (24 - nr) (160 - nr / 4 * 32) (by omega) (by omega)
        rw [swap3_A, Inplace32.prepare3_eq] at h'
        obtain ⟨m'', e', hA⟩ := loop_eq (2 ^ 32) 3 3 (24 - nr) _ _ m' _ (by decide) (by omega) (by omega) (by omega) e h'
        exact ⟨m'', e', by rw [hA, e24]; rfl⟩

/-- with no rounds, the constants are read past the end of the table -/
theorem permuteNrounds_zero (m : M) : permuteNrounds m 0 = none := by
  have h : ∀ fuel, 0 < fuel → permuteLoop fuel 0 192 m = none := by
    intro fuel hf
    obtain ⟨fuel, rfl⟩ : ∃ k, fuel = k + 1 := ⟨fuel - 1, by omega⟩
    simp only [permuteLoop, rounds, step]
    rw [show rc (192 + (0 + 4)) = none by decide +kernel, show rc (192 + 0) = some 0xFF from rc_end]
    rfl
  rw [permuteNrounds]
  simp only
  rw [if_pos (by decide), permute, show sub32 roundConstants0Mod4 (0 * 8 % 2 ^ 32) = 192 by decide]
  exact h (2 ^ 32) (by decide)

end KeccakP1600.Arm32
