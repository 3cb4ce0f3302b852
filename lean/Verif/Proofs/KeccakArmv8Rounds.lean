import Verif.Model.KeccakArmv8Asm
import Verif.Proofs.KeccakAvx512Rounds

/-!
The rounds and the loop of the ARMv8-A implementation in assembly are those of the reference implementation.
-/

namespace Armv8Asm

open KeccakP1600 (Lane Lanes rstep lane forall_fin25 wordOfBytes bytesOfWord bytesOfLanes lanesOfBytes)
open KeccakP1600.Opt64 (run)
open KeccakP1600.Ref (rol64)
open Avx512Asm (col rest rstep_of)
open X86

/-- The state in the registers. -/
def lanesOf (r : Regs) : Lanes := fun i =>
  match i.val with
  | 0 => r.v19.1 | 4 => r.v19.2 | 1 => r.v20.1 | 5 => r.v20.2 | 2 => r.v21.1 | 6 => r.v21.2 | 3 => r.v22.1 | 7 => r.v22.2
  | 8 => r.v23.1 | 12 => r.v23.2 | 9 => r.v24.1 | 13 => r.v24.2 | 10 => r.v25.1 | 14 => r.v25.2 | 11 => r.v26.1 | 15 => r.v26.2
  | 16 => r.v27.1 | 20 => r.v27.2 | 17 => r.v28.1 | 21 => r.v28.2 | 18 => r.v29.1 | 22 => r.v29.2 | 19 => r.v30.1 | 23 => r.v30.2
  | _ => r.v31.1

theorem sri_eq (n : Lane) : sriElem (n <<< 1) n 63 = rol64 n 1 := by
  have h : (n <<< 1) &&& ~~~ (BitVec.allOnes 64 >>> 63) = n <<< 1 := by
    apply BitVec.eq_of_getLsbD_eq
    intro i hi
    rcases Nat.eq_zero_or_pos i with rfl | h0
    · simp
    · rw [BitVec.getLsbD_and, BitVec.getLsbD_not, BitVec.getLsbD_ushiftRight, BitVec.getLsbD_of_ge (BitVec.allOnes 64) (63 + i) (by omega)]
      simp [hi]
  rw [sriElem, h, Simd.or_shift_eq n 1 (by decide) (by decide)]
  rfl

theorem rotl_eq (q : Q) : rotl64 q 1 = (rol64 q.1 1, rol64 q.2 1) := by
  unfold rotl64 shl sri
  simp only
  rw [sri_eq, sri_eq]

theorem xor_last (a c d : Lane) : a ^^^ (c ^^^ d) = a ^^^ d ^^^ c := by ac_rfl

theorem theta_lane (r : Regs) : ∀ x y : Fin 5, lanesOf (theta r) (lane x y) =
    lanesOf r (lane x y) ^^^ rol64 (col (lanesOf r) (x + 1)) 1 ^^^ col (lanesOf r) (x + 4) := by
  intro x y
  obtain ⟨⟨a0, a4⟩, ⟨a1, a5⟩, ⟨a2, a6⟩, ⟨a3, a7⟩, ⟨a8, a12⟩, ⟨a9, a13⟩, ⟨a10, a14⟩, ⟨a11, a15⟩, ⟨a16, a20⟩, ⟨a17, a21⟩, ⟨a18, a22⟩, ⟨a19, a23⟩,
    ⟨a24, junk⟩⟩ := r
  have h0 : col (lanesOf ⟨⟨a0, a4⟩, ⟨a1, a5⟩, ⟨a2, a6⟩, ⟨a3, a7⟩, ⟨a8, a12⟩, ⟨a9, a13⟩, ⟨a10, a14⟩, ⟨a11, a15⟩, ⟨a16, a20⟩, ⟨a17, a21⟩, ⟨a18, a22⟩, ⟨a19, a23⟩, ⟨a24, junk⟩⟩) 0 = a0 ^^^ a10 ^^^ (a5 ^^^ a15 ^^^ a20) := by
    show a0 ^^^ a5 ^^^ a10 ^^^ a15 ^^^ a20 = _
    ac_rfl
  have h1 : col (lanesOf ⟨⟨a0, a4⟩, ⟨a1, a5⟩, ⟨a2, a6⟩, ⟨a3, a7⟩, ⟨a8, a12⟩, ⟨a9, a13⟩, ⟨a10, a14⟩, ⟨a11, a15⟩, ⟨a16, a20⟩, ⟨a17, a21⟩, ⟨a18, a22⟩, ⟨a19, a23⟩, ⟨a24, junk⟩⟩) 1 = a1 ^^^ a11 ^^^ a16 ^^^ (a6 ^^^ a21) := by
    show a1 ^^^ a6 ^^^ a11 ^^^ a16 ^^^ a21 = _
    ac_rfl
  have h2 : col (lanesOf ⟨⟨a0, a4⟩, ⟨a1, a5⟩, ⟨a2, a6⟩, ⟨a3, a7⟩, ⟨a8, a12⟩, ⟨a9, a13⟩, ⟨a10, a14⟩, ⟨a11, a15⟩, ⟨a16, a20⟩, ⟨a17, a21⟩, ⟨a18, a22⟩, ⟨a19, a23⟩, ⟨a24, junk⟩⟩) 2 = a7 ^^^ a12 ^^^ a22 ^^^ (a2 ^^^ a17) := by
    show a2 ^^^ a7 ^^^ a12 ^^^ a17 ^^^ a22 = _
    ac_rfl
  have h3 : col (lanesOf ⟨⟨a0, a4⟩, ⟨a1, a5⟩, ⟨a2, a6⟩, ⟨a3, a7⟩, ⟨a8, a12⟩, ⟨a9, a13⟩, ⟨a10, a14⟩, ⟨a11, a15⟩, ⟨a16, a20⟩, ⟨a17, a21⟩, ⟨a18, a22⟩, ⟨a19, a23⟩, ⟨a24, junk⟩⟩) 3 = a3 ^^^ a8 ^^^ a18 ^^^ (a13 ^^^ a23) := by
    show a3 ^^^ a8 ^^^ a13 ^^^ a18 ^^^ a23 = _
    ac_rfl
  have h4 : col (lanesOf ⟨⟨a0, a4⟩, ⟨a1, a5⟩, ⟨a2, a6⟩, ⟨a3, a7⟩, ⟨a8, a12⟩, ⟨a9, a13⟩, ⟨a10, a14⟩, ⟨a11, a15⟩, ⟨a16, a20⟩, ⟨a17, a21⟩, ⟨a18, a22⟩, ⟨a19, a23⟩, ⟨a24, junk⟩⟩) 4 = a9 ^^^ a19 ^^^ (a4 ^^^ a14) ^^^ a24 := by
    show a4 ^^^ a9 ^^^ a14 ^^^ a19 ^^^ a24 = _
    ac_rfl
  unfold theta
  simp only [rotl_eq, eor, trn1, trn2, ext8]
  fin_cases x
  · rw [show (⟨0, by decide⟩ : Fin 5) + 1 = 1 from rfl, show (⟨0, by decide⟩ : Fin 5) + 4 = 4 from rfl, h1, h4]
    fin_cases y <;> exact xor_last _ _ _
  · rw [show (⟨1, by decide⟩ : Fin 5) + 1 = 2 from rfl, show (⟨1, by decide⟩ : Fin 5) + 4 = 0 from rfl, h2, h0]
    fin_cases y <;> exact xor_last _ _ _
  · rw [show (⟨2, by decide⟩ : Fin 5) + 1 = 3 from rfl, show (⟨2, by decide⟩ : Fin 5) + 4 = 1 from rfl, h3, h1]
    fin_cases y <;> exact xor_last _ _ _
  · rw [show (⟨3, by decide⟩ : Fin 5) + 1 = 4 from rfl, show (⟨3, by decide⟩ : Fin 5) + 4 = 2 from rfl, h4, h2]
    fin_cases y <;> exact xor_last _ _ _
  · rw [show (⟨4, by decide⟩ : Fin 5) + 1 = 0 from rfl, show (⟨4, by decide⟩ : Fin 5) + 4 = 3 from rfl, h0, h3]
    fin_cases y <;> exact xor_last _ _ _

theorem ror_eq (w : Lane) (k : Nat) (h0 : 0 < k) (h : k < 64) : w.rotateRight (64 - k) = rol64 w k := by
  rw [BitVec.rotateRight_def, Nat.mod_eq_of_lt (by omega), show 64 - (64 - k) = k by omega, BitVec.or_comm, Simd.or_shift_eq w k h0 h,
    KeccakP1600.Opt64.rol64_eq w k (by omega)]

theorem rhoPi_lane (r : Regs) : ∀ x y : Fin 5, lanesOf (rhoPi r) (lane x y) =
    rol64 (lanesOf r (lane (x + 3 * y) x)) (KeccakP1600.Ref.rhoOffsets.getD (lane (x + 3 * y) x).val 0) := by
  intro x y
  fin_cases x <;> fin_cases y <;> first | exact ror_eq _ _ (by decide) (by decide) | exact ror_eq _ 44 (by decide) (by decide) | rfl

theorem chi_comm (a b c : Lane) : a ^^^ (c &&& ~~~ b) = a ^^^ (~~~ b &&& c) := by rw [BitVec.and_comm]

theorem chi_lane (r : Regs) : ∀ x y : Fin 5, lanesOf (chi r) (lane x y) =
    lanesOf r (lane x y) ^^^ (~~~ lanesOf r (lane (x + 1) y) &&& lanesOf r (lane (x + 2) y)) := by
  intro x y
  fin_cases x <;> fin_cases y <;> exact chi_comm _ _ _

theorem round_eq (rc : Lane) (r : Regs) : lanesOf (keccakRound rc r) = rstep rc (lanesOf r) := by
  refine rstep_of rc (lanesOf r) (fun i => rol64 (lanesOf (theta r) i) (KeccakP1600.Ref.rhoOffsets.getD i.val 0)) _ (fun x y => ?_) (fun x y => ?_)
  · rw [theta_lane]
  · unfold rest
    dsimp only
    have h := chi_lane (rhoPi (theta r)) x y
    rw [rhoPi_lane, rhoPi_lane, rhoPi_lane] at h
    rw [← h]
    unfold keccakRound
    dsimp only
    generalize chi (rhoPi (theta r)) = q
    fin_cases x <;> fin_cases y <;> first | rfl | exact BitVec.xor_zero

theorem constant_eq (i : Nat) (hi : i < 24) : rd64 constantBytes (8 * i) = some (KeccakP1600.Ref.roundConstants.getD i 0) := by
  have h : ∀ i : Fin 24, rd64 constantBytes (8 * i.val) = some (KeccakP1600.Ref.roundConstants.getD i.val 0) := by decide +kernel
  exact h ⟨i, hi⟩

theorem sub32_eq {a b : Nat} (h : b ≤ a) (ha : a < 2 ^ 32) : sub32 a b = a - b := by unfold sub32; omega

theorem roundLoop_eq : ∀ (n fuel i : Nat) (r : Regs), n < fuel → i + (n + 1) ≤ 24 →
    ∃ r', roundLoop fuel (8 * i) (n + 1) r = some r' ∧ lanesOf r' = run i (n + 1) (lanesOf r) := by
  intro n
  induction n with
  | zero =>
    intro fuel i r hf hi
    obtain ⟨fuel, rfl⟩ : ∃ f, fuel = f + 1 := ⟨fuel - 1, by omega⟩
    refine ⟨keccakRound (KeccakP1600.Ref.roundConstants.getD i 0) r, ?_, round_eq _ r⟩
    rw [roundLoop, constant_eq i (by omega), Option.bind_eq_bind, Option.bind_some]
    rfl
  | succ n ih =>
    intro fuel i r hf hi
    obtain ⟨fuel, rfl⟩ : ∃ f, fuel = f + 1 := ⟨fuel - 1, by omega⟩
    obtain ⟨r2, h3, h4⟩ := ih fuel (i + 1) (keccakRound (KeccakP1600.Ref.roundConstants.getD i 0) r) (by omega) (by omega)
    refine ⟨r2, ?_, ?_⟩
    · rw [roundLoop, constant_eq i (by omega), Option.bind_eq_bind, Option.bind_some]
      simp only
      rw [sub32_eq (by omega) (by omega), Nat.add_sub_cancel, if_pos (by omega), ← h3]
      rfl
    · rw [h4, round_eq, Nat.add_comm (n + 1) 1, KeccakP1600.Opt64.run_add i 1]
      rfl

/-! ### Loads and stores -/

theorem ld4_eq (m : Bytes) (a : Nat) (h : a + 64 ≤ m.length) : ld4 m a = some (
    (wordOfBytes (m.drop a), wordOfBytes (m.drop (a + 32))), (wordOfBytes (m.drop (a + 8)), wordOfBytes (m.drop (a + 40))),
    (wordOfBytes (m.drop (a + 16)), wordOfBytes (m.drop (a + 48))), (wordOfBytes (m.drop (a + 24)), wordOfBytes (m.drop (a + 56)))) := by
  unfold ld4
  simp only [Option.bind_eq_bind]
  rw [rd64_ok m a (by omega), rd64_ok m _ (by omega), rd64_ok m _ (by omega), rd64_ok m _ (by omega), rd64_ok m _ (by omega),
    rd64_ok m _ (by omega), rd64_ok m _ (by omega), rd64_ok m _ (by omega)]
  rfl

theorem wrWords_eq : ∀ (ws : List Lane) (m : Bytes) (a : Nat), a + 8 * ws.length ≤ m.length →
    wrWords m a ws = some (Bytes.setAt m a (ws.flatMap bytesOfWord)) := by
  intro ws
  induction ws with
  | nil => intro m a _; rw [wrWords, List.flatMap_nil, Bytes.setAt_nil]
  | cons w ws ih =>
    intro m a h
    rw [List.length_cons] at h
    rw [wrWords, wr64_ok m a w (by omega), Option.bind_eq_bind, Option.bind_some, ih _ _ (by rw [Bytes.length_setAt]; omega), List.flatMap_cons]
    have := Bytes.setAt_append m a (bytesOfWord w) (ws.flatMap bytesOfWord)
    rw [KeccakP1600.length_bytesOfWord] at this
    rw [this]

theorem st4_eq (m : Bytes) (a : Nat) (q : Q × Q × Q × Q) (h : a + 64 ≤ m.length) :
    st4 m a q = some (Bytes.setAt m a ((words4 q).flatMap bytesOfWord)) := wrWords_eq _ _ _ h

theorem loadState_eq (junk : Lane) (st : Bytes) (h : st.length = 200) : ∃ r, loadState junk st = some r ∧ lanesOf r = lanesOfBytes st := by
  unfold loadState
  rw [ld4_eq st 0 (by omega), ld4_eq st 64 (by omega), ld4_eq st 128 (by omega), rd64_ok st 192 (by omega)]
  refine ⟨_, rfl, ?_⟩
  funext i
  fin_cases i <;> rfl

theorem length_words4 (q : Q × Q × Q × Q) : ((words4 q).flatMap bytesOfWord).length = 64 := rfl

/-- Eight, eight, eight words and one. -/
theorem store_eq (st : Bytes) (h : st.length = 200) (q1 q2 q3 : Q × Q × Q × Q) (w : Lane) :
    ((st4 st 0 q1).bind fun st => (st4 st 64 q2).bind fun st => (st4 st 128 q3).bind fun st => wr64 st 192 w) =
      some ((words4 q1 ++ words4 q2 ++ words4 q3 ++ [w]).flatMap bytesOfWord) := by
  rw [st4_eq _ _ _ (by omega), Option.bind_some, st4_eq _ _ _ (by rw [Bytes.length_setAt]; omega), Option.bind_some,
    st4_eq _ _ _ (by rw [Bytes.length_setAt, Bytes.length_setAt]; omega), Option.bind_some,
    wr64_ok _ _ _ (by rw [Bytes.length_setAt, Bytes.length_setAt, Bytes.length_setAt]; omega)]
  have e1 := Bytes.setAt_append st 0 ((words4 q1).flatMap bytesOfWord) ((words4 q2).flatMap bytesOfWord)
  rw [length_words4] at e1
  have e2 := Bytes.setAt_append st 0 ((words4 q1).flatMap bytesOfWord ++ (words4 q2).flatMap bytesOfWord) ((words4 q3).flatMap bytesOfWord)
  rw [List.length_append, length_words4, length_words4] at e2
  have e3 := Bytes.setAt_append st 0 ((words4 q1).flatMap bytesOfWord ++ (words4 q2).flatMap bytesOfWord ++ (words4 q3).flatMap bytesOfWord) (bytesOfWord w)
  rw [List.length_append, List.length_append, length_words4, length_words4, length_words4] at e3
  rw [e1, e2, e3, List.flatMap_append, List.flatMap_append, List.flatMap_append, List.flatMap_singleton]
  congr 1
  apply Plane512.setAt_all
  rw [h]
  rfl

theorem storeState_eq (r : Regs) (st : Bytes) (h : st.length = 200) : storeState r st = some (bytesOfLanes (lanesOf r)) := by
  unfold storeState
  simp only [Option.bind_eq_bind]
  rw [store_eq st h]
  rfl

theorem permute_eq (junk : Lane) (st : Bytes) (h : st.length = 200) (nr : Nat) (h0 : 0 < nr) (hnr : nr ≤ 24) :
    permute junk st (8 * (24 - nr)) nr = some (KeccakP1600.Ref.permuteNrounds nr st) := by
  obtain ⟨r, h1, h2⟩ := loadState_eq junk st h
  obtain ⟨n, rfl⟩ : ∃ n, nr = n + 1 := ⟨nr - 1, by omega⟩
  obtain ⟨r', h3, h4⟩ := roundLoop_eq n (2 ^ 32) (24 - (n + 1)) r (by omega) (by omega)
  unfold permute
  simp only [Option.bind_eq_bind]
  rw [h1, Option.bind_some, Nat.mod_eq_of_lt (by omega), h3, Option.bind_some, storeState_eq _ st h, h4, h2, KeccakP1600.Opt64.run_onWords]
  rfl

theorem permuteNrounds_eq (junk : Lane) (st : Bytes) (h : st.length = 200) (nr : Nat) (h0 : 0 < nr) (hnr : nr ≤ 24) :
    permuteNrounds junk st nr = some (KeccakP1600.Ref.permuteNrounds nr st) := by
  rw [← permute_eq junk st h nr h0 hnr, permuteNrounds]
  rw [if_neg (by omega), show 192 - nr * 2 ^ 3 = 8 * (24 - nr) by omega]

end Armv8Asm
