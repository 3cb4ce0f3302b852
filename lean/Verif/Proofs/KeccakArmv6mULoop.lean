import Verif.Proofs.KeccakArmv6mU

/-! ## the permutations of the ARMv6-M assembly with two states are those of the reference implementation -/

namespace KeccakP1600.Arm6U

open Inplace32 (refRound roundC loopFrom_add)
open XoodooArm (sub32)
open Arm32 (set r1 r6)

/-- the pointer to the constants of the round `i` -/
def ptr (i : Nat) : Word := BitVec.ofNat 32 (8 * i)

theorem toNat_ptr (i : Nat) (h : i ≤ 24) : (ptr i).toNat = 8 * i := by
  rw [ptr, BitVec.toNat_ofNat, Nat.mod_eq_of_lt (by omega)]

theorem ptr_add (i k : Nat) (h : i + k ≤ 24) : ptr i + BitVec.ofNat 32 (8 * k) = ptr (i + k) := by
  rw [ptr, ptr, ← BitVec.ofNat_add, Nat.mul_add]

theorem rc0 (i : Nat) (h : i < 24) : Arm6.rc (8 * i) = some (Ref32.roundConstants.getD i (0, 0)).1 := Arm32.rc_fst ⟨i, h⟩
theorem rc1 (i : Nat) (h : i < 24) : Arm6.rc (8 * i + 4) = some (Ref32.roundConstants.getD i (0, 0)).2 := Arm32.rc_snd ⟨i, h⟩

/-- the machine after `adds r1, r1, #8*k` and `ldr r6, [r1]`, before the end of the table -/
theorem next (b : Bool) (f : F) (i k : Nat) (P : P3) (h : f.r r1 = ptr i) (hk : i + k ≤ 24) :
    ∃ w f', ldrRc r6 0 (addR1 (8 * k) (lift true b f (ptr i) P)) = lift true b f' (ptr i) P ∧ f'.r r6 = w ∧ f'.r r1 = ptr (i + k) ∧
      f'.I = f.I ∧ f'.O = f.O ∧ (w = 0xFF ↔ i + k = 24) := by
  have hw : ∃ w, Arm6.rc (8 * (i + k)) = some w ∧ (w = 0xFF ↔ i + k = 24) := by
    by_cases e : i + k = 24
    · rw [e]
      exact ⟨0xFF, Arm32.rc_end, by simp⟩
    · obtain ⟨w, hw, hne⟩ := Arm32.rc_ne ⟨i + k, by omega⟩
      exact ⟨w, hw, ⟨fun hc => absurd hc hne, fun hc => absurd hc e⟩⟩
  obtain ⟨w, hw, hiff⟩ := hw
  have e1 : addR1 (8 * k) (lift true b f (ptr i) P) = lift true b { f with r := set f.r r1 (ptr (i + k)) } (ptr i) P := by
    unfold addR1
    rw [show (lift true b f (ptr i) P).r r1 = ptr i from h, ptr_add i k hk]
    rfl
  refine ⟨w, { f with r := set (set f.r r1 (ptr (i + k))) r6 w }, ?_, rfl, rfl, rfl, rfl, hiff⟩
  rw [e1]
  unfold ldrRc
  rw [show (lift true b { f with r := set f.r r1 (ptr (i + k)) } (ptr i) P).r r1 = ptr (i + k) from rfl, toNat_ptr _ hk, Nat.add_zero, hw]
  rfl

/-- `str r1, [sp, #mRC]` -/
theorem strRc (b : Bool) (f : F) (T : Word) (P : P3) : strSp r1 mRC (lift true b f T P) = lift true b f (f.r r1) P := by
  unfold strSp lift
  dsimp only
  rw [set_stackT]

theorem swap_states (b : Bool) (f : F) (T : Word) (P : P3) : lift true b f T P = lift true (!b) ⟨f.r, f.O, f.I, f.D⟩ T P := by
  cases b <;> rfl

/-! ### Any state of the machine -/

/-- a machine on entry, as above -/
theorem enter_eq (m : M) (hok : m.ok = true) :
    m = lift true false ⟨m.r, m.A, fun i => m.s i.val, m.s⟩ (m.s mRC) ⟨m.p0, m.p5, m.p7⟩ := by
  obtain ⟨r, A, s, p0, p5, p7, ok⟩ := m
  obtain rfl : ok = true := hok
  unfold lift
  congr 1
  funext i
  simp only [stack]
  by_cases h : i < 50
  · rw [if_pos h]
    simp only [Bool.false_eq_true, if_false, Fin.ofNat, Nat.mod_eq_of_lt h]
  · rw [if_neg h]
    split
    · rename_i e; rw [e]
    · rfl

/-! ### Copying the state -/

theorem ldr_false (f : F) (T : Word) (q p7 : Ptr) (d p x : Nat) (h : p + x < 50) :
    ldr d ⟨false, p⟩ x (lift true false f T ⟨⟨false, p⟩, q, p7⟩) = lift true false (f.ldr d (p + x)) T ⟨⟨false, p⟩, q, p7⟩ :=
  ldr_in true false f T _ d p x h

/-- the copy of five words -/
def copied (n : Nat) (f : F) : Prop := ∀ i : Fin 50, i.val < n → f.O i = f.I i

theorem copy5_eq (f : F) (T : Word) (q : Ptr) (p : Nat) (h : p + 5 ≤ 50) (hc : copied p f) :
    ∃ f', copy5 (lift true false f T ⟨⟨false, p⟩, q, ⟨true, p⟩⟩) = lift true false f' T ⟨⟨false, p + 5⟩, q, ⟨true, p + 5⟩⟩ ∧
      f'.I = f.I ∧ copied (p + 5) f' := by
  have hadd : XoodooArm.add32 p 5 = p + 5 := by
    rw [XoodooArm.add32]; omega
  let g := F.ldr 5 (p + 4) (F.ldr 4 (p + 3) (F.ldr 3 (p + 2) (F.ldr 2 (p + 1) (F.ldr 1 (p + 0) f))))
  refine ⟨F.str 5 (p + 4) (F.str 4 (p + 3) (F.str 3 (p + 2) (F.str 2 (p + 1) (F.str 1 (p + 0) g)))), ?_, rfl, ?_⟩
  · have a0 : ∀ (f : F), addR0 5 (lift true false f T ⟨⟨false, p⟩, q, ⟨true, p⟩⟩) = lift true false f T ⟨⟨false, p + 5⟩, q, ⟨true, p⟩⟩ := by
      intro f
      unfold addR0
      rw [show XoodooArm.add32 (lift true false f T ⟨⟨false, p⟩, q, ⟨true, p⟩⟩).p0.off 5 = p + 5 from hadd]
      rfl
    have a7 : ∀ (f : F), addR7 5 (lift true false f T ⟨⟨false, p + 5⟩, q, ⟨true, p⟩⟩) = lift true false f T ⟨⟨false, p + 5⟩, q, ⟨true, p + 5⟩⟩ := by
      intro f
      unfold addR7
      rw [show XoodooArm.add32 (lift true false f T ⟨⟨false, p + 5⟩, q, ⟨true, p⟩⟩).p7.off 5 = p + 5 from hadd]
      rfl
    have l : ∀ (f : F) (d x : Nat), p + x < 50 → ldr d (lift true false f T ⟨⟨false, p⟩, q, ⟨true, p⟩⟩).p0 x (lift true false f T ⟨⟨false, p⟩, q, ⟨true, p⟩⟩) =
        lift true false (f.ldr d (p + x)) T ⟨⟨false, p⟩, q, ⟨true, p⟩⟩ := fun f d x hx => ldr_in true false f T _ d p x hx
    have s : ∀ (f : F) (d x : Nat), p + x < 50 → str d (lift true false f T ⟨⟨false, p + 5⟩, q, ⟨true, p⟩⟩).p7 x (lift true false f T ⟨⟨false, p + 5⟩, q, ⟨true, p⟩⟩) =
        lift true false (f.str d (p + x)) T ⟨⟨false, p + 5⟩, q, ⟨true, p⟩⟩ := fun f d x hx => str_out true false f T _ d p x hx
    simp only [copy5]
    rw [l _ _ 0 (by omega), l _ _ 1 (by omega), l _ _ 2 (by omega), l _ _ 3 (by omega), l _ _ 4 (by omega), a0,
      s _ _ 0 (by omega), s _ _ 1 (by omega), s _ _ 2 (by omega), s _ _ 3 (by omega), s _ _ 4 (by omega), a7]
  · intro i hi
    have hv : ∀ k, k < 5 → (Fin.ofNat 50 (p + k)).val = p + k := fun k hk => Nat.mod_eq_of_lt (by omega)
    have hO : (F.str 5 (p + 4) (F.str 4 (p + 3) (F.str 3 (p + 2) (F.str 2 (p + 1) (F.str 1 (p + 0) g))))).O =
        put (put (put (put (put f.O (Fin.ofNat 50 (p + 0)) (f.I (Fin.ofNat 50 (p + 0)))) (Fin.ofNat 50 (p + 1)) (f.I (Fin.ofNat 50 (p + 1))))
          (Fin.ofNat 50 (p + 2)) (f.I (Fin.ofNat 50 (p + 2)))) (Fin.ofNat 50 (p + 3)) (f.I (Fin.ofNat 50 (p + 3))))
          (Fin.ofNat 50 (p + 4)) (f.I (Fin.ofNat 50 (p + 4))) := rfl
    rw [hO]
    show _ = f.I i
    simp only [put]
    by_cases e4 : i = Fin.ofNat 50 (p + 4)
    · rw [if_pos e4, e4]
    rw [if_neg e4]
    by_cases e3 : i = Fin.ofNat 50 (p + 3)
    · rw [if_pos e3, e3]
    rw [if_neg e3]
    by_cases e2 : i = Fin.ofNat 50 (p + 2)
    · rw [if_pos e2, e2]
    rw [if_neg e2]
    by_cases e1 : i = Fin.ofNat 50 (p + 1)
    · rw [if_pos e1, e1]
    rw [if_neg e1]
    by_cases e0 : i = Fin.ofNat 50 (p + 0)
    · rw [if_pos e0, e0]
    rw [if_neg e0]
    apply hc
    have n : ∀ k, k < 5 → i ≠ Fin.ofNat 50 (p + k) → i.val ≠ p + k := fun k hk hne hc' => hne (Fin.ext (by rw [hv k hk]; exact hc'))
    have := n 0 (by omega) e0
    have := n 1 (by omega) e1
    have := n 2 (by omega) e2
    have := n 3 (by omega) e3
    have := n 4 (by omega) e4
    omega

theorem copy_eq (f : F) (T : Word) (q : Ptr) :
    ∃ f', copy (lift true false f T ⟨⟨false, 0⟩, q, ⟨true, 0⟩⟩) = lift true false f' T ⟨⟨false, 50⟩, q, ⟨true, 50⟩⟩ ∧ f'.I = f.I ∧ f'.O = f.I := by
  obtain ⟨f1, e1, i1, c1⟩ := copy5_eq f T q 0 (by omega) (fun i hi => absurd hi (by omega))
  obtain ⟨f2, e2, i2, c2⟩ := copy5_eq f1 T q 5 (by omega) c1
  obtain ⟨f3, e3, i3, c3⟩ := copy5_eq f2 T q 10 (by omega) c2
  obtain ⟨f4, e4, i4, c4⟩ := copy5_eq f3 T q 15 (by omega) c3
  obtain ⟨f5, e5, i5, c5⟩ := copy5_eq f4 T q 20 (by omega) c4
  obtain ⟨f6, e6, i6, c6⟩ := copy5_eq f5 T q 25 (by omega) c5
  obtain ⟨f7, e7, i7, c7⟩ := copy5_eq f6 T q 30 (by omega) c6
  obtain ⟨f8, e8, i8, c8⟩ := copy5_eq f7 T q 35 (by omega) c7
  obtain ⟨f9, e9, i9, c9⟩ := copy5_eq f8 T q 40 (by omega) c8
  obtain ⟨f10, e10, i10, c10⟩ := copy5_eq f9 T q 45 (by omega) c9
  have hI : f10.I = f.I := by rw [i10, i9, i8, i7, i6, i5, i4, i3, i2, i1]
  refine ⟨f10, ?_, hI, ?_⟩
  · unfold copy
    rw [e1, e2, e3, e4, e5, e6, e7, e8, e9, e10]
  · funext i
    rw [← hI]
    exact c10 i i.isLt

theorem nrounds_ptr (nr : Nat) (h : nr ≤ 24) : BitVec.ofNat 32 roundConstants0 - (BitVec.ofNat 32 nr : Word) <<< 3 = ptr (24 - nr) := by
  have : ∀ n : Fin 25, BitVec.ofNat 32 roundConstants0 - (BitVec.ofNat 32 n.val : Word) <<< 3 = ptr (24 - n.val) := by decide +kernel
  exact this ⟨nr, by omega⟩

theorem nrounds_odd (nr : Nat) (h : nr ≤ 24) : (BitVec.ofNat 32 nr : Word) <<< 31 ≠ 0 ↔ nr % 2 = 1 := by
  have : ∀ n : Fin 25, (BitVec.ofNat 32 n.val : Word) <<< 31 ≠ 0 ↔ n.val % 2 = 1 := by decide +kernel
  exact this ⟨nr, by omega⟩

/-! ### One round in the loop -/

namespace U1

/-- the loop, from the round `i`, when the state of the caller is read first if the number of rounds is even -/
theorem loop_eq : ∀ (k fuel i : Nat) (b : Bool) (f : F) (q : Ptr), k < fuel → i + (k + 1) = 24 → (b = true ↔ k % 2 = 0) → ∃ m',
    permuteLoop1 fuel (lift true b f (ptr i) ⟨⟨b, 0⟩, q, ⟨!b, 0⟩⟩) = some m' ∧ m'.A = loopFrom refRound i (k + 1) f.I ∧ m'.p0 = ⟨false, 0⟩ := by
  intro k
  induction k with
  | zero =>
    intro fuel i b f q hf hi hb
    obtain ⟨fuel, rfl⟩ : ∃ k, fuel = k + 1 := ⟨fuel - 1, by omega⟩
    obtain rfl : b = true := hb.mpr rfl
    obtain ⟨f', e, h1, hO⟩ := round_l true (ptr i) f q _ _ (by rw [toNat_ptr i (by omega)]; exact rc0 i (by omega))
      (by rw [toNat_ptr i (by omega)]; exact rc1 i (by omega))
    obtain ⟨w, f'', e', h6, -, -, hO', hw⟩ := next true f' i 1 (at1 true 0 0) h1 (by omega)
    refine ⟨{ lift true true f'' (ptr i) (at1 true 0 0) with p0 := ⟨false, 0⟩ }, ?_, ?_, rfl⟩
    · simp only [permuteLoop1]
      rw [e, show ldrRc r6 0 (addR1 8 (lift true true f' (ptr i) (at1 true 0 0))) = _ from e', if_neg (by simp [lift]),
        if_pos (show (lift true true f'' (ptr i) (at1 true 0 0)).r r6 = 0xFF by rw [show (lift true true f'' (ptr i) (at1 true 0 0)).r r6 = w from h6]; exact hw.mpr (by omega))]
      rfl
    · show f''.O = _
      rw [hO', hO]
      rfl
  | succ k ih =>
    intro fuel i b f q hf hi hb
    obtain ⟨fuel, rfl⟩ : ∃ k, fuel = k + 1 := ⟨fuel - 1, by omega⟩
    obtain ⟨f', e, h1, hO⟩ := round_l b (ptr i) f q _ _ (by rw [toNat_ptr i (by omega)]; exact rc0 i (by omega))
      (by rw [toNat_ptr i (by omega)]; exact rc1 i (by omega))
    obtain ⟨w, f'', e', h6, hr1, -, hO', hw⟩ := next b f' i 1 (at1 b 0 0) h1 (by omega)
    obtain ⟨m', em, hA, hp⟩ := ih fuel (i + 1) (!b) ⟨f''.r, f''.O, f''.I, f''.D⟩ ⟨b, 30⟩ (by omega) (by omega)
      (by cases b <;> simp at hb ⊢ <;> omega)
    refine ⟨m', ?_, ?_, hp⟩
    · simp only [permuteLoop1]
      rw [e, show ldrRc r6 0 (addR1 8 (lift true b f' (ptr i) (at1 b 0 0))) = _ from e', if_neg (by simp [lift]),
        if_neg (show ¬ (lift true b f'' (ptr i) (at1 b 0 0)).r r6 = 0xFF by rw [show (lift true b f'' (ptr i) (at1 b 0 0)).r r6 = w from h6]; exact fun hc => absurd (hw.mp hc) (by omega)),
        show swap (lift true b f'' (ptr i) (at1 b 0 0)) = lift true b f'' (ptr i) ⟨⟨!b, 0⟩, ⟨b, 30⟩, ⟨b, 0⟩⟩ from rfl, strRc, hr1, swap_states]
      rw [Bool.not_not] at em
      exact em
    · rw [hA]
      show loopFrom refRound (i + 1) (k + 1) f''.O = _
      rw [hO', hO]
      rfl

theorem permute_eq (m : M) (hp : m.p0 = ⟨false, 0⟩) (hok : m.ok = true) (nr : Nat) (h0 : 0 < nr) (h : nr ≤ 24) (h2 : nr % 2 = 0)
    (hr : m.r r1 = ptr (24 - nr)) : ∃ m', permute m = some m' ∧ m'.A = Ref32.permuteNrounds nr m.A ∧ m'.p0 = ⟨false, 0⟩ := by
  obtain ⟨r, A, s, p0, p5, p7, ok⟩ := m
  obtain rfl : p0 = ⟨false, 0⟩ := hp
  obtain rfl : ok = true := hok
  have he := enter_eq ⟨r, A, s, ⟨false, 0⟩, p5, ⟨true, mEs⟩, true⟩ rfl
  obtain ⟨m', e, hA, hp⟩ := loop_eq (nr - 1) (2 ^ 32) (24 - nr) false ⟨r, A, fun i => s i.val, s⟩ p5 (by omega) (by omega)
    (by simp; omega)
  refine ⟨m', ?_, ?_, hp⟩
  · rw [← e]
    unfold permute
    simp only
    rw [he, strRc]
    dsimp only
    rw [show r r1 = ptr (24 - nr) from hr]
    rfl
  · rw [hA, show nr - 1 + 1 = nr by omega]
    rfl

theorem nroundsOdd_eq (m : M) (hp : m.p0 = ⟨false, 0⟩) (hok : m.ok = true) (nr : Nat) (h : nr ≤ 24) (h2 : nr % 2 = 1)
    (hr : m.r r1 = ptr (24 - nr)) : ∃ m', nroundsOdd m = some m' ∧ m'.A = Ref32.permuteNrounds nr m.A ∧ m'.p0 = ⟨false, 0⟩ := by
  obtain ⟨r, A, s, p0, p5, p7, ok⟩ := m
  obtain rfl : p0 = ⟨false, 0⟩ := hp
  obtain rfl : ok = true := hok
  have he := enter_eq ⟨r, A, s, ⟨false, 0⟩, p5, p7, true⟩ rfl
  obtain ⟨f', ec, hI, hO⟩ := copy_eq ⟨r, A, fun i => s i.val, s⟩ (ptr (24 - nr)) p5
  obtain ⟨m', e, hA, hp⟩ := loop_eq (nr - 1) (2 ^ 32) (24 - nr) true ⟨f'.r, f'.O, f'.I, f'.D⟩ p5 (by omega) (by omega)
    (by simp; omega)
  refine ⟨m', ?_, ?_, hp⟩
  · rw [← e]
    unfold nroundsOdd
    simp only
    rw [he, strRc]
    dsimp only
    rw [show r r1 = ptr (24 - nr) from hr,
      show ({ lift true false ⟨r, A, fun i => s i.val, s⟩ (ptr (24 - nr)) ⟨⟨false, 0⟩, p5, p7⟩ with p7 := ⟨true, mEs⟩ } : M) =
        lift true false ⟨r, A, fun i => s i.val, s⟩ (ptr (24 - nr)) ⟨⟨false, 0⟩, p5, ⟨true, 0⟩⟩ from rfl, ec]
    have hs : ∀ m : M, m.p7 = ⟨false, 50⟩ → subR7 (25 * 2) m = { m with p7 := ⟨false, 0⟩ } := fun m hm => by
      unfold subR7
      rw [hm]
      rw [show sub32 (⟨false, 50⟩ : Ptr).off (25 * 2) = 0 from show sub32 50 50 = 0 by decide]
    rw [hs _ rfl]
    exact congrArg _ (swap_states false f' (ptr (24 - nr)) ⟨⟨true, 0⟩, p5, ⟨false, 0⟩⟩)
  · rw [hA, show nr - 1 + 1 = nr by omega]
    show loopFrom refRound _ _ f'.O = _
    rw [hO]
    rfl

theorem permuteNrounds_eq (m : M) (hp : m.p0 = ⟨false, 0⟩) (hok : m.ok = true) (nr : Nat) (h0 : 0 < nr) (h : nr ≤ 24) :
    ∃ m', permuteNrounds m nr = some m' ∧ m'.A = Ref32.permuteNrounds nr m.A ∧ m'.p0 = ⟨false, 0⟩ := by
  have hr : (nroundsR1 (BitVec.ofNat 32 nr) m).r r1 = ptr (24 - nr) := nrounds_ptr nr h
  unfold permuteNrounds
  simp only
  by_cases h2 : nr % 2 = 1
  · rw [if_pos ((nrounds_odd nr h).mpr h2)]
    obtain ⟨m', e, hA, hp'⟩ := nroundsOdd_eq (nroundsR1 (BitVec.ofNat 32 nr) m) hp hok nr h h2 hr
    exact ⟨m', e, hA, hp'⟩
  · rw [if_neg (fun hc => h2 ((nrounds_odd nr h).mp hc))]
    obtain ⟨m', e, hA, hp'⟩ := permute_eq (nroundsR1 (BitVec.ofNat 32 nr) m) hp hok nr h0 h (by omega) hr
    exact ⟨m', e, hA, hp'⟩

/-- with no rounds, the constants are read past the end of the table -/
theorem permuteNrounds_zero (m : M) (hp : m.p0 = ⟨false, 0⟩) (hok : m.ok = true) : permuteNrounds m 0 = none := by
  have hl : ∀ fuel (f : F) (q : Ptr), 0 < fuel → permuteLoop1 fuel (lift true false f (ptr 24) ⟨⟨false, 0⟩, q, ⟨true, 0⟩⟩) = none := by
    intro fuel f q hf
    obtain ⟨fuel, rfl⟩ : ∃ k, fuel = k + 1 := ⟨fuel - 1, by omega⟩
    have h := round_none false (ptr 24) true f q (by decide +kernel)
    simp only [permuteLoop1]
    rw [if_pos]
    show (_ && (addR1 8 (round (lift true false f (ptr 24) ⟨⟨false, 0⟩, q, ⟨true, 0⟩⟩))).ok) = false
    rw [show (addR1 8 (round (lift true false f (ptr 24) ⟨⟨false, 0⟩, q, ⟨true, 0⟩⟩))).ok = false from h, Bool.and_false]
  obtain ⟨r, A, s, p0, p5, p7, ok⟩ := m
  obtain rfl : p0 = ⟨false, 0⟩ := hp
  obtain rfl : ok = true := hok
  have he := enter_eq ⟨set r r1 (ptr 24), A, s, ⟨false, 0⟩, p5, ⟨true, mEs⟩, true⟩ rfl
  have hr : nroundsR1 (BitVec.ofNat 32 0) ⟨r, A, s, ⟨false, 0⟩, p5, p7, true⟩ = ⟨set r r1 (ptr 24), A, s, ⟨false, 0⟩, p5, p7, true⟩ := by
    unfold nroundsR1
    rw [nrounds_ptr 0 (by omega)]
  unfold permuteNrounds
  simp only
  rw [hr, if_neg (by decide)]
  unfold permute
  simp only
  rw [he, strRc]
  exact hl (2 ^ 32) _ p5 (by decide)

end U1

/-! ### Two rounds in the loop -/

namespace U2

/-- the loop, from the second half of an iteration, with the pointer to the constants of the round before it -/
theorem loop_eq : ∀ (k fuel i : Nat) (f : F) (q : Ptr), k < fuel → i + 2 * (k + 1) = 24 → ∃ m',
    permuteLoopOdd fuel (lift true true f (ptr i) (at2 q)) = some m' ∧ m'.A = loopFrom refRound (i + 1) (2 * k + 1) f.I ∧ m'.p0 = ⟨false, 0⟩ := by
  intro k
  induction k with
  | zero =>
    intro fuel i f q hf hi
    obtain ⟨fuel, rfl⟩ : ∃ k, fuel = k + 1 := ⟨fuel - 1, by omega⟩
    obtain ⟨f', e, h1, hO⟩ := kround_l true (ptr i) q f 8 _ _ (by omega)
      (by rw [toNat_ptr i (by omega), show 8 * i + (8 + 0) = 8 * (i + 1) by omega]; exact rc0 (i + 1) (by omega))
      (by rw [toNat_ptr i (by omega), show 8 * i + (8 + 4) = 8 * (i + 1) + 4 by omega]; exact rc1 (i + 1) (by omega))
    obtain ⟨w, f'', e', h6, -, -, hO', hw⟩ := next true f' i 2 (at2 q) h1 (by omega)
    refine ⟨lift true true f'' (ptr i) (at2 q), ?_, ?_, rfl⟩
    · simp only [permuteLoopOdd]
      rw [show kround 1 8 (lift true true f (ptr i) (at2 q)) = _ from e, show ldrRc r6 0 (addR1 (2 * 8) (lift true true f' (ptr i) (at2 q))) = _ from e', if_neg (by simp [lift]),
        if_pos (show (lift true true f'' (ptr i) (at2 q)).r r6 = 0xFF by rw [show (lift true true f'' (ptr i) (at2 q)).r r6 = w from h6]; exact hw.mpr (by omega))]
    · show f''.O = _
      rw [hO', hO]
      rfl
  | succ k ih =>
    intro fuel i f q hf hi
    obtain ⟨fuel, rfl⟩ : ∃ k, fuel = k + 1 := ⟨fuel - 1, by omega⟩
    obtain ⟨f', e, h1, hO⟩ := kround_l true (ptr i) q f 8 _ _ (by omega)
      (by rw [toNat_ptr i (by omega), show 8 * i + (8 + 0) = 8 * (i + 1) by omega]; exact rc0 (i + 1) (by omega))
      (by rw [toNat_ptr i (by omega), show 8 * i + (8 + 4) = 8 * (i + 1) + 4 by omega]; exact rc1 (i + 1) (by omega))
    obtain ⟨w, f'', e', h6, hr1, -, hO', hw⟩ := next true f' i 2 (at2 q) h1 (by omega)
    obtain ⟨g, eg, hg1, hgO⟩ := kround_l false (ptr (i + 2)) q ⟨f''.r, f''.O, f''.I, f''.D⟩ 0 _ _ (by omega)
      (by rw [toNat_ptr (i + 2) (by omega)]; exact rc0 (i + 2) (by omega))
      (by rw [toNat_ptr (i + 2) (by omega)]; exact rc1 (i + 2) (by omega))
    obtain ⟨m', em, hA, hp⟩ := ih fuel (i + 2) ⟨g.r, g.O, g.I, g.D⟩ q (by omega) (by omega)
    refine ⟨m', ?_, ?_, hp⟩
    · simp only [permuteLoopOdd]
      rw [show kround 1 8 (lift true true f (ptr i) (at2 q)) = _ from e, show ldrRc r6 0 (addR1 (2 * 8) (lift true true f' (ptr i) (at2 q))) = _ from e', if_neg (by simp [lift]),
        if_neg (show ¬ (lift true true f'' (ptr i) (at2 q)).r r6 = 0xFF by rw [show (lift true true f'' (ptr i) (at2 q)).r r6 = w from h6]; exact fun hc => absurd (hw.mp hc) (by omega)),
        strRc, hr1, swap_states]
      rw [show kround 0 0 (lift true (!true) ⟨f''.r, f''.O, f''.I, f''.D⟩ (ptr (i + 2)) (at2 q)) = _ from eg, swap_states]
      exact em
    · rw [hA]
      show loopFrom refRound (i + 2 + 1) (2 * k + 1) g.O = _
      rw [hgO]
      show loopFrom refRound (i + 2 + 1) (2 * k + 1) (roundC _ _ f''.O) = _
      rw [hO', hO]
      rfl

theorem setR7_eq (m : M) (hp : m.p0 = ⟨false, 0⟩) : setR7 m = { m with p7 := ⟨false, 30⟩ } := by
  unfold setR7
  rw [hp]
  rw [show XoodooArm.add32 Arm6.Ama0 (⟨false, 0⟩ : Ptr).off = 30 from show XoodooArm.add32 30 0 = 30 by decide]

theorem permute_eq (m : M) (hp : m.p0 = ⟨false, 0⟩) (hok : m.ok = true) (nr : Nat) (h0 : 0 < nr) (h : nr ≤ 24) (h2 : nr % 2 = 0)
    (hr : m.r r1 = ptr (24 - nr)) : ∃ m', permute m = some m' ∧ m'.A = Ref32.permuteNrounds nr m.A ∧ m'.p0 = ⟨false, 0⟩ := by
  obtain ⟨r, A, s, p0, p5, p7, ok⟩ := m
  obtain rfl : p0 = ⟨false, 0⟩ := hp
  obtain rfl : ok = true := hok
  have he := enter_eq ⟨r, A, s, ⟨false, 0⟩, p5, ⟨false, 30⟩, true⟩ rfl
  obtain ⟨g, eg, -, hgO⟩ := kround_l false (ptr (24 - nr)) p5 ⟨r, A, fun i => s i.val, s⟩ 0 _ _ (by omega)
      (by rw [toNat_ptr (24 - nr) (by omega)]; exact rc0 (24 - nr) (by omega))
      (by rw [toNat_ptr (24 - nr) (by omega)]; exact rc1 (24 - nr) (by omega))
  obtain ⟨m', e, hA, hp⟩ := loop_eq (nr / 2 - 1) (2 ^ 32) (24 - nr) ⟨g.r, g.O, g.I, g.D⟩ p5 (by omega) (by omega)
  refine ⟨m', ?_, ?_, hp⟩
  · rw [← e]
    unfold permute
    simp only
    rw [setR7_eq _ rfl]
    dsimp only
    rw [he, strRc]
    dsimp only
    rw [show r r1 = ptr (24 - nr) from hr]
    rw [show kround 0 0 (lift true false ⟨r, A, fun i => s i.val, s⟩ (ptr (24 - nr)) ⟨⟨false, 0⟩, p5, ⟨false, 30⟩⟩) = _ from eg, swap_states]
    rfl
  · rw [hA, show 2 * (nr / 2 - 1) + 1 = nr - 1 by omega]
    show loopFrom refRound _ _ g.O = _
    rw [hgO]
    obtain ⟨n, rfl⟩ : ∃ n, nr = n + 1 := ⟨nr - 1, by omega⟩
    rfl

theorem nroundsOdd_eq (m : M) (hp : m.p0 = ⟨false, 0⟩) (hok : m.ok = true) (nr : Nat) (h : nr ≤ 24) (h2 : nr % 2 = 1)
    (hr : m.r r1 = ptr (24 - nr)) : ∃ m', nroundsOdd m = some m' ∧ m'.A = Ref32.permuteNrounds nr m.A ∧ m'.p0 = ⟨false, 0⟩ := by
  obtain ⟨r, A, s, p0, p5, p7, ok⟩ := m
  obtain rfl : p0 = ⟨false, 0⟩ := hp
  obtain rfl : ok = true := hok
  have hsub : ptr (24 - nr) - 8 = ptr (23 - nr) := by
    have : ∀ n : Fin 24, ptr (24 - n.val) - 8 = ptr (23 - n.val) := by decide +kernel
    exact this ⟨nr, by omega⟩
  let r' := set r r1 (r r1 - 8)
  have hr' : r' r1 = ptr (23 - nr) := by
    show r r1 - 8 = _
    rw [show r r1 = ptr (24 - nr) from hr, hsub]
  have he := enter_eq ⟨r', A, s, ⟨false, 0⟩, p5, p7, true⟩ rfl
  obtain ⟨f', ec, hI, hO⟩ := copy_eq ⟨r', A, fun i => s i.val, s⟩ (ptr (23 - nr)) p5
  obtain ⟨m', e, hA, hp⟩ := loop_eq (nr / 2) (2 ^ 32) (23 - nr) ⟨f'.r, f'.O, f'.I, f'.D⟩ p5 (by omega) (by omega)
  refine ⟨m', ?_, ?_, hp⟩
  · rw [← e]
    unfold nroundsOdd
    simp only
    rw [show subR1 ⟨r, A, s, ⟨false, 0⟩, p5, p7, true⟩ = ⟨r', A, s, ⟨false, 0⟩, p5, p7, true⟩ from rfl, he, strRc]
    dsimp only
    rw [hr', show ({ lift true false ⟨r', A, fun i => s i.val, s⟩ (ptr (23 - nr)) ⟨⟨false, 0⟩, p5, p7⟩ with p7 := ⟨true, 0⟩ } : M) =
        lift true false ⟨r', A, fun i => s i.val, s⟩ (ptr (23 - nr)) ⟨⟨false, 0⟩, p5, ⟨true, 0⟩⟩ from rfl, ec]
    have hs : ∀ m : M, m.p0 = ⟨false, 50⟩ → subR0 (25 * 2) m = { m with p0 := ⟨false, 0⟩ } := fun m hm => by
      unfold subR0
      rw [hm]
      rw [show sub32 (⟨false, 50⟩ : Ptr).off (25 * 2) = 0 from show sub32 50 50 = 0 by decide]
    rw [hs _ rfl, setR7_eq _ rfl]
    exact congrArg _ (swap_states false f' (ptr (23 - nr)) (at2 p5))
  · rw [hA, show 2 * (nr / 2) + 1 = nr by omega, show 23 - nr + 1 = 24 - nr by omega]
    show loopFrom refRound _ _ f'.O = _
    rw [hO]
    rfl

theorem permuteNrounds_eq (m : M) (hp : m.p0 = ⟨false, 0⟩) (hok : m.ok = true) (nr : Nat) (h0 : 0 < nr) (h : nr ≤ 24) :
    ∃ m', permuteNrounds m nr = some m' ∧ m'.A = Ref32.permuteNrounds nr m.A ∧ m'.p0 = ⟨false, 0⟩ := by
  have hr : (nroundsR1 (BitVec.ofNat 32 nr) m).r r1 = ptr (24 - nr) := nrounds_ptr nr h
  unfold permuteNrounds
  simp only
  by_cases h2 : nr % 2 = 1
  · rw [if_pos ((nrounds_odd nr h).mpr h2)]
    obtain ⟨m', e, hA, hp'⟩ := nroundsOdd_eq (nroundsR1 (BitVec.ofNat 32 nr) m) hp hok nr h h2 hr
    exact ⟨m', e, hA, hp'⟩
  · rw [if_neg (fun hc => h2 ((nrounds_odd nr h).mp hc))]
    obtain ⟨m', e, hA, hp'⟩ := permute_eq (nroundsR1 (BitVec.ofNat 32 nr) m) hp hok nr h0 h (by omega) hr
    exact ⟨m', e, hA, hp'⟩

/-- with no rounds, the constants are read past the end of the table -/
theorem permuteNrounds_zero (m : M) (hp : m.p0 = ⟨false, 0⟩) (hok : m.ok = true) : permuteNrounds m 0 = none := by
  have hl : ∀ fuel (f : F) (q : Ptr), 0 < fuel → permuteLoopOdd fuel (lift false true f (ptr 24) (at2 q)) = none := by
    intro fuel f q hf
    obtain ⟨fuel, rfl⟩ : ∃ k, fuel = k + 1 := ⟨fuel - 1, by omega⟩
    obtain ⟨f', h⟩ := kround_none true (ptr 24) q false f 8 (by decide) (by decide +kernel)
    simp only [permuteLoopOdd]
    rw [if_pos]
    rw [show kround 1 8 (lift false true f (ptr 24) (at2 q)) = _ from h]
    show (_ && false) = false
    rw [Bool.and_false]
  obtain ⟨r, A, s, p0, p5, p7, ok⟩ := m
  obtain rfl : p0 = ⟨false, 0⟩ := hp
  obtain rfl : ok = true := hok
  have he := enter_eq ⟨set r r1 (ptr 24), A, s, ⟨false, 0⟩, p5, ⟨false, 30⟩, true⟩ rfl
  have hr : nroundsR1 (BitVec.ofNat 32 0) ⟨r, A, s, ⟨false, 0⟩, p5, p7, true⟩ = ⟨set r r1 (ptr 24), A, s, ⟨false, 0⟩, p5, p7, true⟩ := by
    unfold nroundsR1
    rw [nrounds_ptr 0 (by omega)]
  obtain ⟨g, eg⟩ := kround_none false (ptr 24) p5 true ⟨set r r1 (ptr 24), A, fun i => s i.val, s⟩ 0 (by decide) (by decide +kernel)
  unfold permuteNrounds
  simp only
  rw [hr, if_neg (by decide)]
  unfold permute
  simp only
  rw [setR7_eq _ rfl]
  dsimp only
  rw [he, strRc]
  rw [show kround 0 0 (lift true false ⟨set r r1 (ptr 24), A, fun i => s i.val, s⟩ (set r r1 (ptr 24) r1) ⟨⟨false, 0⟩, p5, ⟨false, 30⟩⟩) = _ from eg,
    show lift false false g (ptr 24) (at2 p5) = lift false true ⟨g.r, g.O, g.I, g.D⟩ (ptr 24) (at2 p5) from rfl]
  exact hl (2 ^ 32) _ p5 (by decide)

end U2

end KeccakP1600.Arm6U
