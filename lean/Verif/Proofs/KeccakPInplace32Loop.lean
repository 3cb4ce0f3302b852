import Verif.Proofs.KeccakPInplace32

/-! # The in-place 32-bit implementation: the number of rounds -/

namespace KeccakP1600.Inplace32

open Ref32 (rhoOffsets)

/-! ## the preparation of the state -/

theorem store_load (A : Words) : store (load A) = A := by
  funext i; fin_cases i <;> rfl

theorem put_comp {α β : Type} (A : α → β) (g : Fin 50 → α) (i : Fin 50) (v : α) :
    put (fun j => A (g j)) i (A v) = fun j => A (put g i v j) := by
  funext j
  simp only [put]
  split <;> rfl

theorem swapPI13_comp {α β : Type} (A : α → β) (g : Fin 50 → α) (a b c d e f h i : Nat) :
    swapPI13 a b c d e f h i (fun j => A (g j)) = fun j => A (swapPI13 a b c d e f h i g j) := by
  simp only [swapPI13, put_comp]

theorem swapPI2_comp {α β : Type} (A : α → β) (g : Fin 50 → α) (a b c d : Nat) :
    swapPI2 a b c d (fun j => A (g j)) = fun j => A (swapPI2 a b c d g j) := by
  simp only [swapPI2, put_comp]

theorem swapEO_comp {α β : Type} (A : α → β) (g : Fin 50 → α) (a b : Fin 50) :
    swapEO a b (fun j => A (g j)) = fun j => A (swapEO a b g j) := by
  simp only [swapEO, put_comp]

/-- the preparation moves words, independently of their values -/
theorem prepare_move (n : Nat) (A : Words) : prepare n A = fun j => A (prepare n id j) := by
  have key : ∀ g : Fin 50 → Fin 50, prepare n (fun j => A (g j)) = fun j => A (prepare n g j) := by
    intro g
    match n with
    | 0 => rfl
    | 1 => simp only [prepare, prepare1, swapPI13_comp, swapEO_comp]
    | 2 => simp only [prepare, prepare2, swapPI2_comp]
    | 3 => simp only [prepare, prepare3, swapPI13_comp, swapEO_comp]
    | _ + 4 => rfl
  exact key id

theorem prepare1_eq (A : Words) : store (order3 (load (prepare 1 A))) = A := by
  rw [prepare_move]
  funext i; fin_cases i <;> exact congrArg A (by decide +kernel)

theorem prepare2_eq (A : Words) : store (order2 (load (prepare 2 A))) = A := by
  rw [prepare_move]
  funext i; fin_cases i <;> exact congrArg A (by decide +kernel)

theorem prepare3_eq (A : Words) : store (order1 (load (prepare 3 A))) = A := by
  rw [prepare_move]
  funext i; fin_cases i <;> exact congrArg A (by decide +kernel)

/-! ## the loop -/

/-- one round of the reference implementation -/
def refRound (i : Nat) (A : Words) : Words := Ref32.round Ref32.roundConstants rhoOffsets A i

/-- what remains of the table before round `i` -/
def table (i : Nat) : List Word := roundConstants.drop (i * 2)

theorem table_succ : ∀ i : Fin 24, table i.val = (Ref32.roundConstants.getD i.val (0, 0)).1 ::
    (Ref32.roundConstants.getD i.val (0, 0)).2 :: table (i.val + 1) := by decide +kernel

theorem table_head : ∀ i : Fin 24, ∃ w, (table i.val).head? = some w ∧ w ≠ 0xFF := by
  intro i
  refine ⟨_, by rw [table_succ]; rfl, ?_⟩
  revert i
  decide +kernel

theorem table_end : table 24 = [0xFF] := by decide +kernel

theorem step_eq (f : Word → Word → Half → Half) (lin lout : Half → Half)
    (h : ∀ c0 c1 S, store (lout (f c0 c1 S)) = roundC c0 c1 (store (lin S))) (S : Half) (i : Nat) (hi : i < 24) :
    ∃ S', step f (S, table i) = some (S', table (i + 1)) ∧ store (lout S') = refRound i (store (lin S)) := by
  refine ⟨f (Ref32.roundConstants.getD i (0, 0)).1 (Ref32.roundConstants.getD i (0, 0)).2 S, ?_, h _ _ _⟩
  rw [table_succ ⟨i, hi⟩]
  rfl

theorem rounds0_eq (S : Half) (i : Nat) (hi : i + 4 ≤ 24) : ∃ S', rounds 0 (S, table i) = some (S', table (i + 4)) ∧
    store S' = loopFrom refRound i 4 (store S) := by
  obtain ⟨S1, e1, h1⟩ := step_eq round0 id order1 round0_eq S i (by omega)
  obtain ⟨S2, e2, h2⟩ := step_eq round1 order1 order2 round1_eq S1 (i + 1) (by omega)
  obtain ⟨S3, e3, h3⟩ := step_eq round2 order2 order3 round2_eq S2 (i + 2) (by omega)
  obtain ⟨S4, e4, h4⟩ := step_eq round3 order3 id round3_eq S3 (i + 3) (by omega)
  refine ⟨S4, ?_, ?_⟩
  · simp only [rounds, Option.bind_eq_bind]
    rw [e1, Option.bind_some, e2, Option.bind_some, e3, Option.bind_some, e4]
  · simp only [loopFrom, id_eq] at *
    rw [h4, h3, h2, h1]

theorem rounds3_eq (S : Half) (i : Nat) (hi : i + 3 ≤ 24) : ∃ S', rounds 3 (S, table i) = some (S', table (i + 3)) ∧
    store S' = loopFrom refRound i 3 (store (order1 S)) := by
  obtain ⟨S2, e2, h2⟩ := step_eq round1 order1 order2 round1_eq S i (by omega)
  obtain ⟨S3, e3, h3⟩ := step_eq round2 order2 order3 round2_eq S2 (i + 1) (by omega)
  obtain ⟨S4, e4, h4⟩ := step_eq round3 order3 id round3_eq S3 (i + 2) (by omega)
  refine ⟨S4, ?_, ?_⟩
  · simp only [rounds, Option.bind_eq_bind]
    rw [e2, Option.bind_some, e3, Option.bind_some, e4]
  · simp only [loopFrom, id_eq] at *
    rw [h4, h3, h2]

theorem rounds2_eq (S : Half) (i : Nat) (hi : i + 2 ≤ 24) : ∃ S', rounds 2 (S, table i) = some (S', table (i + 2)) ∧
    store S' = loopFrom refRound i 2 (store (order2 S)) := by
  obtain ⟨S3, e3, h3⟩ := step_eq round2 order2 order3 round2_eq S i (by omega)
  obtain ⟨S4, e4, h4⟩ := step_eq round3 order3 id round3_eq S3 (i + 1) (by omega)
  refine ⟨S4, ?_, ?_⟩
  · simp only [rounds, Option.bind_eq_bind]
    rw [e3, Option.bind_some, e4]
  · simp only [loopFrom, id_eq] at *
    rw [h4, h3]

theorem rounds1_eq (S : Half) (i : Nat) (hi : i + 1 ≤ 24) : ∃ S', rounds 1 (S, table i) = some (S', table (i + 1)) ∧
    store S' = loopFrom refRound i 1 (store (order3 S)) := by
  obtain ⟨S4, e4, h4⟩ := step_eq round3 order3 id round3_eq S i (by omega)
  exact ⟨S4, e4, h4⟩

theorem loopFrom_add {σ : Type} (f : Nat → σ → σ) : ∀ (m i n : Nat) (s : σ),
    loopFrom f i (m + n) s = loopFrom f (i + m) n (loopFrom f i m s) := by
  intro m
  induction m with
  | zero => intro i n s; simp [loopFrom]
  | succ m ih =>
    intro i n s
    rw [show m + 1 + n = (m + n) + 1 by omega, loopFrom, ih, loopFrom, show i + 1 + m = i + (m + 1) by omega]

/-- the rest of the loop, once a number of rounds that is a multiple of four remains -/
theorem loop_tail : ∀ (m fuel i : Nat) (S : Half), m < fuel → i + 4 * (m + 1) = 24 → ∃ S',
    loop fuel 0 (S, table i) = some S' ∧ store S' = loopFrom refRound i (4 * (m + 1)) (store S) := by
  intro m
  induction m with
  | zero =>
    intro fuel i S hf hi
    obtain ⟨fuel, rfl⟩ : ∃ k, fuel = k + 1 := ⟨fuel - 1, by omega⟩
    obtain ⟨S', e, h⟩ := rounds0_eq S i (by omega)
    refine ⟨S', ?_, h⟩
    simp only [loop, Option.bind_eq_bind]
    rw [e, Option.bind_some, show i + 4 = 24 by omega, table_end]
    rfl
  | succ m ih =>
    intro fuel i S hf hi
    obtain ⟨fuel, rfl⟩ : ∃ k, fuel = k + 1 := ⟨fuel - 1, by omega⟩
    obtain ⟨S', e, h⟩ := rounds0_eq S i (by omega)
    obtain ⟨S'', e', h'⟩ := ih fuel (i + 4) S' (by omega) (by omega)
    obtain ⟨w, hw, hne⟩ := table_head ⟨i + 4, by omega⟩
    simp only at hw
    refine ⟨S'', ?_, ?_⟩
    · simp only [loop, Option.bind_eq_bind]
      rw [e, Option.bind_some]
      simp only [hw, Option.bind_some]
      rw [if_pos hne, e']
    · rw [h', h, show 4 * (m + 1 + 1) = 4 + 4 * (m + 1) by omega, loopFrom_add]

/-- the loop, when its first iteration does `r` rounds -/
theorem loop_eq (r i : Nat) (S S' : Half) (A : Words) (hr : i + r ≤ 24) (h4 : (i + r) % 4 = 0)
    (e : rounds (r % 4) (S, table i) = some (S', table (i + r))) (h : store S' = loopFrom refRound i r A) :
    ∃ S'', loop 25 (r % 4) (S, table i) = some S'' ∧ store S'' = loopFrom refRound i (24 - i) A := by
  by_cases hend : i + r = 24
  · refine ⟨S', ?_, by rw [h]; congr 1; omega⟩
    simp only [loop, Option.bind_eq_bind]
    rw [e, Option.bind_some, hend, table_end]
    rfl
  · obtain ⟨S'', e', h'⟩ := loop_tail (6 - (i + r) / 4 - 1) 24 (i + r) S' (by omega) (by omega)
    obtain ⟨w, hw, hne⟩ := table_head ⟨i + r, by omega⟩
    simp only at hw
    refine ⟨S'', ?_, ?_⟩
    · simp only [loop, Option.bind_eq_bind]
      rw [e, Option.bind_some]
      simp only [hw, Option.bind_some]
      rw [if_pos hne, ← e']
      rfl
    · rw [h', h, ← loopFrom_add]
      congr 1
      omega

theorem permuteNrounds_eq (A : Words) (nr : Nat) (h0 : 0 < nr) (h : nr ≤ 24) :
    permuteNrounds A nr = some (Ref32.permuteNrounds nr A) := by
  have key : ∃ S, loop 25 (nr % 4) (load (prepare (nr % 4) A), table (24 - nr)) = some S ∧
      store S = loopFrom refRound (24 - nr) nr A := by
    have hcase : nr % 4 = 0 ∨ nr % 4 = 1 ∨ nr % 4 = 2 ∨ nr % 4 = 3 := by omega
    have e24 : 24 - (24 - nr) = nr := by omega
    rcases hcase with hc | hc | hc | hc <;> rw [hc]
    · obtain ⟨S', e, h'⟩ := rounds0_eq (load (prepare 0 A)) (24 - nr) (by omega)
      have := loop_eq 4 (24 - nr) _ S' _ (by omega) (by omega) e h'
      rwa [show prepare 0 A = A from rfl, store_load, e24] at this
    · obtain ⟨S', e, h'⟩ := rounds1_eq (load (prepare 1 A)) (24 - nr) (by omega)
      have := loop_eq 1 (24 - nr) _ S' _ (by omega) (by omega) e h'
      rwa [prepare1_eq, e24] at this
    · obtain ⟨S', e, h'⟩ := rounds2_eq (load (prepare 2 A)) (24 - nr) (by omega)
      have := loop_eq 2 (24 - nr) _ S' _ (by omega) (by omega) e h'
      rwa [prepare2_eq, e24] at this
    · obtain ⟨S', e, h'⟩ := rounds3_eq (load (prepare 3 A)) (24 - nr) (by omega)
      have := loop_eq 3 (24 - nr) _ S' _ (by omega) (by omega) e h'
      rwa [prepare3_eq, e24] at this
  obtain ⟨S, e, hS⟩ := key
  rw [permuteNrounds, if_pos h]
  simp only [Option.bind_eq_bind]
  rw [show roundConstants.drop ((24 - nr) * 2) = table (24 - nr) from rfl, e, Option.bind_some, hS]
  rfl

/-- with no rounds, the constants are read past the end of the table -/
theorem permuteNrounds_zero (A : Words) : permuteNrounds A 0 = none := by
  rw [permuteNrounds, if_pos (by omega)]
  simp only [Option.bind_eq_bind]
  rw [show roundConstants.drop ((24 - 0) * 2) = table 24 from rfl, table_end]
  rfl

end KeccakP1600.Inplace32
