import Verif.Model.KeccakPlane512
import Verif.Proofs.KeccakXop
import Verif.Proofs.Avx512Lanes
import Verif.Proofs.SimdMem

/-!
The rounds and the loops of the AVX-512 implementation in C are those of the reference implementation.
-/

namespace Plane512

open KeccakP1600 (Lane Lanes rstep lane forall_fin25 wordOfBytes bytesOfWord bytesOfLanes)
open KeccakP1600.Opt64 (run run_add)
open Simd (Vec xor roti unpacklo unpackhi storeWord)

/-- The plane `y`. -/
def row (p : Planes) (y : Nat) : Vec 8 :=
  match y with
  | 0 => p.b
  | 1 => p.g
  | 2 => p.k
  | 3 => p.m
  | _ => p.s

/-- The state in the variables. -/
def lanesOf (p : Planes) : Lanes := fun i => (row p (i.val / 5)).at (i.val % 5)

theorem xor3_eq (a b c : Vec 8) : xor3 a b c = fun l => a l ^^^ b l ^^^ c l := by
  exact Avx512.ternary_xor a b c

theorem chi_eq (a b c : Vec 8) : chi a b c = fun l => a l ^^^ (~~~ b l &&& c l) := by
  exact Avx512.ternary_chi a b c

theorem roti1_eq (a : Vec 8) : roti a 1 = fun l => KeccakP1600.Ref.rol64 (a l) 1 := by
  funext l; exact Xop.ref_rol64 _ _ (by decide)

theorem rolv_at (a o : Vec 8) (l : Fin 8) : rolv a o l = KeccakP1600.Ref.rol64 (a l) ((o l).toNat % 64) :=
  Xop.ref_rol64 _ _ (Nat.mod_lt _ (by decide))

/-- The parity of the column `x`. -/
def col (p : Planes) (x : Fin 5) : Lane :=
  lanesOf p (lane x 0) ^^^ lanesOf p (lane x 1) ^^^ lanesOf p (lane x 2) ^^^ lanesOf p (lane x 3) ^^^ lanesOf p (lane x 4)

theorem theta_lane (p : Planes) : ∀ x y : Fin 5, lanesOf (theta p) (lane x y) =
    lanesOf p (lane x y) ^^^ KeccakP1600.Ref.rol64 (col p (x + 1)) 1 ^^^ col p (x + 4) := by
  intro x y
  unfold theta xor5
  simp -zeta only [xor3_eq, roti1_eq]
  fin_cases x <;> fin_cases y <;> rfl

theorem rho_lane (p : Planes) : ∀ x y : Fin 5, lanesOf (rho p) (lane x y) =
    KeccakP1600.Ref.rol64 (lanesOf p (lane x y)) (KeccakP1600.Ref.rhoOffsets.getD (lane x y).val 0) := by
  intro x y
  fin_cases x <;> fin_cases y <;> exact rolv_at _ _ _

theorem pi_lane (rc : Lane) (p : Planes) : ∀ x y : Fin 5, lanesOf (pi2 (iota rc (pi1Chi p))) (lane x y) =
    let b := fun x y : Fin 5 => lanesOf p (lane (x + 3 * y) x)
    let r := b x y ^^^ (~~~ b (x + 1) y &&& b (x + 2) y)
    if x = 0 ∧ y = 0 then r ^^^ rc else r := by
  intro x y
  unfold pi1Chi
  simp -zeta only [chi_eq]
  fin_cases x <;> fin_cases y <;> first | rfl | exact BitVec.xor_zero

theorem thetaC_col (p : Planes) (x : Fin 5) : KeccakP1600.Ref.thetaC (lanesOf p) x.val = col p x := by
  rw [KeccakP1600.thetaC_eq, show (0 : Lane) = 0#64 from rfl, BitVec.zero_xor]; rfl

theorem thetaD_col (p : Planes) (x : Fin 5) : KeccakP1600.Ref.thetaD (lanesOf p) x.val =
    KeccakP1600.Ref.rol64 (col p (x + 1)) 1 ^^^ col p (x + 4) := by
  rw [KeccakP1600.Opt64.thetaD_eq, ← thetaC_col, ← thetaC_col, BitVec.xor_comm]
  fin_cases x <;> rfl

theorem round_eq (i : Nat) (hi : i < 24) (p : Planes) :
    ∃ p', round i p = some p' ∧ lanesOf p' = run i 1 (lanesOf p) := by
  have e : roundConstants[i]? = some (KeccakP1600.Ref.roundConstants.getD i 0) := by
    rw [show roundConstants = KeccakP1600.Ref.roundConstants from rfl, List.getD_eq_getElem?_getD,
      List.getElem?_eq_getElem (show i < KeccakP1600.Ref.roundConstants.length from hi)]; rfl
  refine ⟨_, by unfold round; rw [e]; rfl, ?_⟩
  show _ = rstep _ _
  generalize KeccakP1600.Ref.roundConstants.getD i 0 = rc
  funext j
  revert j
  apply forall_fin25
  intro x y
  have hb : ∀ x y : Fin 5, lanesOf (rho (theta p)) (lane (x + 3 * y) x) =
      KeccakP1600.bl (KeccakP1600.Ref.thetaD (lanesOf p)) (lanesOf p) x y := by
    intro x y
    rw [rho_lane, theta_lane, KeccakP1600.bl, thetaD_col, BitVec.xor_assoc]
  rw [pi_lane, KeccakP1600.rstep_lane]
  simp only [hb]

theorem roundsFrom_eq (n : Nat) : ∀ (i : Nat) (p : Planes), i + n ≤ 24 →
    ∃ p', roundsFrom i n p = some p' ∧ lanesOf p' = run i n (lanesOf p) := by
  induction n with
  | zero => intro i p _; exact ⟨p, rfl, rfl⟩
  | succ n ih =>
    intro i p h
    obtain ⟨p1, h1, h2⟩ := round_eq i (by omega) p
    obtain ⟨p2, h3, h4⟩ := ih (i + 1) p1 (by omega)
    refine ⟨p2, ?_, ?_⟩
    · unfold roundsFrom
      rw [List.range'_succ, List.foldlM_cons, h1]
      exact h3
    · rw [h4, h2, Nat.add_comm n 1, run_add]

theorem doWhile_eq (n : Nat) (hn : 0 < n) : ∀ (m fuel i : Nat) (p : Planes), i + n * (m + 1) = 24 → m < fuel →
    ∃ p', doWhile n fuel i p = some p' ∧ lanesOf p' = run i (n * (m + 1)) (lanesOf p) := by
  intro m
  induction m with
  | zero =>
    intro fuel i p hi hf
    obtain ⟨fuel, rfl⟩ : ∃ f, fuel = f + 1 := ⟨fuel - 1, by omega⟩
    rw [Nat.zero_add, Nat.mul_one] at hi ⊢
    obtain ⟨p1, h1, h2⟩ := roundsFrom_eq n i p (by omega)
    refine ⟨p1, ?_, h2⟩
    rw [doWhile, h1, Option.bind_eq_bind, Option.bind_some, if_neg (by omega)]
  | succ m ih =>
    intro fuel i p hi hf
    obtain ⟨fuel, rfl⟩ : ∃ f, fuel = f + 1 := ⟨fuel - 1, by omega⟩
    rw [Nat.mul_succ] at hi ⊢
    have hm : 0 < n * (m + 1) := Nat.mul_pos hn (by omega)
    obtain ⟨p1, h1, h2⟩ := roundsFrom_eq n i p (by omega)
    obtain ⟨p2, h3, h4⟩ := ih fuel (i + n) p1 (by omega) (by omega)
    refine ⟨p2, ?_, ?_⟩
    · rw [doWhile, h1, Option.bind_eq_bind, Option.bind_some, if_pos (by omega), h3]
    · rw [h4, h2, Nat.add_comm (n * (m + 1)), run_add]

theorem rounds12_eq (unr : Unrolling) (p : Planes) :
    ∃ p', rounds12 unr p = some p' ∧ lanesOf p' = run 12 12 (lanesOf p) := by
  cases unr
  · exact roundsFrom_eq 12 12 p (by decide)
  · exact doWhile_eq 6 (by decide) 1 25 12 p rfl (by decide)
  · exact roundsFrom_eq 12 12 p (by decide)

theorem rounds24_eq (unr : Unrolling) (p : Planes) :
    ∃ p', rounds24 unr p = some p' ∧ lanesOf p' = run 0 24 (lanesOf p) := by
  cases unr
  · exact roundsFrom_eq 24 0 p (by decide)
  · exact doWhile_eq 6 (by decide) 3 25 0 p rfl (by decide)
  · exact doWhile_eq 12 (by decide) 1 25 0 p rfl (by decide)

theorem fourLoop_eq : ∀ (m fuel i : Nat) (p : Planes), i + 4 * m = 24 → m < fuel →
    ∃ p', fourLoop fuel i p = some p' ∧ lanesOf p' = run i (4 * m) (lanesOf p) := by
  intro m
  induction m with
  | zero =>
    intro fuel i p hi hf
    obtain ⟨fuel, rfl⟩ : ∃ f, fuel = f + 1 := ⟨fuel - 1, by omega⟩
    exact ⟨p, by rw [fourLoop, if_neg (by omega)], rfl⟩
  | succ m ih =>
    intro fuel i p hi hf
    obtain ⟨fuel, rfl⟩ : ∃ f, fuel = f + 1 := ⟨fuel - 1, by omega⟩
    obtain ⟨p1, h1, h2⟩ := roundsFrom_eq 4 i p (by omega)
    obtain ⟨p2, h3, h4⟩ := ih fuel (i + 4) p1 (by omega) (by omega)
    refine ⟨p2, ?_, ?_⟩
    · rw [fourLoop, if_pos (by omega), h1, Option.bind_eq_bind, Option.bind_some, h3]
    · rw [h4, h2, Nat.mul_succ, Nat.add_comm (4 * m), run_add]

theorem first_eq (n : Nat) (h : n ≤ 24) : first n = 24 - n := by unfold first; omega

theorem oddRound_eq (n : Nat) (h : n ≤ 24) (p : Planes) : ∃ p', oddRound n p = some (p', n / 2 * 2) ∧
    lanesOf p' = run (24 - n) (n % 2) (lanesOf p) := by
  unfold oddRound
  by_cases hn : n % 2 ≠ 0
  · obtain ⟨p1, h1, h2⟩ := round_eq (24 - n) (by omega) p
    refine ⟨p1, ?_, by rw [h2, show n % 2 = 1 by omega]⟩
    rw [if_pos hn, first_eq n h, h1, Option.bind_eq_bind, Option.bind_some, show n - 1 = n / 2 * 2 by omega]
  · refine ⟨p, ?_, by rw [show n % 2 = 0 by omega]; rfl⟩
    rw [if_neg hn, show n / 2 * 2 = n by omega]

theorem twoRounds_eq (n : Nat) (h : n ≤ 24) (he : n % 2 = 0) (p : Planes) : ∃ p', twoRounds n p = some (p', n / 4 * 4) ∧
    lanesOf p' = run (24 - n) (n % 4) (lanesOf p) := by
  unfold twoRounds
  by_cases hn : n / 2 % 2 ≠ 0
  · obtain ⟨p1, h1, h2⟩ := round_eq (24 - n) (by omega) p
    obtain ⟨p2, h3, h4⟩ := round_eq (24 - n + 1) (by omega) p1
    refine ⟨p2, ?_, by rw [h4, h2, show n % 4 = 1 + 1 by omega, run_add]⟩
    rw [if_pos hn, first_eq n h, show (2 ^ 32 + 24 + 1 - n) % 2 ^ 32 = 24 - n + 1 by omega, h1, Option.bind_eq_bind, Option.bind_some, h3,
      Option.bind_some, show n - 2 = n / 4 * 4 by omega]
  · refine ⟨p, ?_, by rw [show n % 4 = 0 by omega]; rfl⟩
    rw [if_neg hn, show n / 4 * 4 = n by omega]

/-! ### Loads and stores -/

theorem maskzLoad_ok (mask : Nat) (buf : Bytes) (a : Nat)
    (h : ∀ i : Fin 8, mask.testBit i.val = true → a + 8 * i.val + 8 ≤ buf.length) :
    maskzLoad mask buf a = some fun i => if mask.testBit i.val then wordOfBytes (buf.drop (a + 8 * i.val)) else 0 := by
  unfold maskzLoad; rw [if_pos h]

/-- The lanes selected by the mask `2^n - 1`. -/
theorem testBit_mask (n : Nat) (i : Nat) : (2 ^ n - 1).testBit i = decide (i < n) := Nat.testBit_two_pow_sub_one n i

theorem load_ok (n : Nat) (buf : Bytes) (a : Nat) (h : a + 8 * n ≤ buf.length) :
    maskzLoad (2 ^ n - 1) buf a = some fun i => if i.val < n then wordOfBytes (buf.drop (a + 8 * i.val)) else 0 := by
  rw [maskzLoad_ok]
  · congr 1; funext i; rw [testBit_mask]; simp
  · intro i hi
    rw [testBit_mask] at hi
    have := of_decide_eq_true hi
    omega

/-- The first `n` words of a register. -/
def wordsOf (n : Nat) (v : Vec 8) : Bytes := (List.range n).flatMap fun i => bytesOfWord (v.at i)

theorem length_wordsOf (n : Nat) (v : Vec 8) : (wordsOf n v).length = 8 * n := by
  unfold wordsOf
  induction n with
  | zero => rfl
  | succ n ih =>
    rw [List.range_succ, List.flatMap_append, List.length_append, ih]
    simp [KeccakP1600.length_bytesOfWord]; omega

theorem wordsOf_succ (n : Nat) (v : Vec 8) : wordsOf (n + 1) v = wordsOf n v ++ bytesOfWord (v.at n) := by
  unfold wordsOf
  rw [List.range_succ, List.flatMap_append]; simp

theorem maskBytes_eq (n : Nat) (hn : n ≤ 8) (v : Vec 8) : maskBytes (2 ^ n - 1) v = wordsOf n v := by
  unfold maskBytes wordsOf
  have e : ∀ k, (List.range k).flatMap (fun i => if (2 ^ n - 1).testBit i then bytesOfWord (v.at i) else []) =
      (List.range (min k n)).flatMap fun i => bytesOfWord (v.at i) := by
    intro k
    induction k with
    | zero => simp
    | succ k ih =>
      rw [List.range_succ, List.flatMap_append, ih, List.flatMap_singleton, testBit_mask]
      by_cases h : k < n
      · rw [show min (k + 1) n = k + 1 by omega, show min k n = k by omega, List.range_succ, List.flatMap_append]
        simp [h]
      · rw [show min (k + 1) n = min k n by omega]; simp [h]
  rw [e 8, Nat.min_eq_right hn]

theorem store_ok (n : Nat) (hn : n ≤ 8) (buf : Bytes) (a : Nat) (v : Vec 8) (h : a + 8 * n ≤ buf.length) :
    maskStore buf a (2 ^ n - 1) v = some (Bytes.setAt buf a (wordsOf n v)) := by
  unfold maskStore
  have e : ∀ k, (List.range k).foldlM
      (fun buf i => if (2 ^ n - 1).testBit i then storeWord buf (a + 8 * i) (v.at i) else some buf) buf =
        some (Bytes.setAt buf a (wordsOf (min k n) v)) := by
    intro k
    induction k with
    | zero =>
      rw [Nat.zero_min]
      show some buf = _
      rw [show wordsOf 0 v = [] from rfl, Bytes.setAt_nil]
    | succ k ih =>
      rw [List.range_succ, List.foldlM_append, ih]
      simp only [Option.bind_eq_bind, Option.bind_some, List.foldlM_cons, List.foldlM_nil, testBit_mask]
      by_cases hk : k < n
      · rw [show min (k + 1) n = k + 1 by omega, show min k n = k by omega, if_pos (by simpa using hk)]
        have hl := length_wordsOf k v
        unfold storeWord SnP.overwriteBytes
        rw [if_pos (by rw [KeccakP1600.length_bytesOfWord]; simp; omega), ← hl, Bytes.setAt_append, ← wordsOf_succ]
        rfl
      · rw [show min (k + 1) n = min k n by omega, if_neg (by simpa using hk)]; rfl
  rw [e 8, Nat.min_eq_right hn]

theorem getD_wordsOf (n : Nat) (v : Vec 8) (q : Nat) (hq : q < 8 * n) :
    (wordsOf n v)[q]? = some (KeccakP1600.byteOf (v.at (q / 8)) (q % 8)) := by
  induction n with
  | zero => omega
  | succ n ih =>
    rw [wordsOf_succ, List.getElem?_append, length_wordsOf]
    split
    · exact ih (by omega)
    · rw [KeccakP1600.getElem?_bytesOfWord, if_pos (by omega), show q / 8 = n by omega, show q - 8 * n = q % 8 by omega]

theorem copyFromState_eq (st : Bytes) (h : st.length = 200) :
    ∃ p, copyFromState st = some p ∧ lanesOf p = KeccakP1600.lanesOfBytes st := by
  have e : ∀ k, k ≤ 20 → maskzLoad 0x1F st (8 * k) =
      some fun i => if i.val < 5 then wordOfBytes (st.drop (8 * k + 8 * i.val)) else 0 := fun k hk =>
    load_ok 5 st (8 * k) (by omega)
  unfold copyFromState
  rw [e 0 (by decide), e 5 (by decide), e 10 (by decide), e 15 (by decide), e 20 (by decide)]
  refine ⟨_, rfl, ?_⟩
  funext i
  fin_cases i <;> rfl

theorem bytesOfLanes_rows (p : Planes) : bytesOfLanes (lanesOf p) =
    wordsOf 5 p.b ++ wordsOf 5 p.g ++ wordsOf 5 p.k ++ wordsOf 5 p.m ++ wordsOf 5 p.s := by
  unfold bytesOfLanes wordsOf
  generalize bytesOfWord = g
  simp only [List.finRange_succ, List.finRange_zero, List.map_cons, List.map_nil, List.flatMap_cons, List.flatMap_nil,
    List.range_succ, List.range_zero, List.nil_append, List.cons_append, List.append_nil, List.append_assoc]
  rfl

theorem setAt_all (s d : Bytes) (h : d.length = s.length) : Bytes.setAt s 0 d = d := by
  apply List.ext_getElem?
  intro i
  rw [Bytes.getElem?_setAt]
  by_cases hi : i < s.length
  · rw [List.getElem?_eq_getElem hi, Option.map_some, if_pos (by omega), Nat.sub_zero, List.getD_eq_getElem?_getD,
      List.getElem?_eq_getElem (show i < d.length by omega)]; rfl
  · rw [List.getElem?_eq_none (by omega), List.getElem?_eq_none (by omega)]; rfl

theorem copyToState_eq (st : Bytes) (h : st.length = 200) (p : Planes) : copyToState st p = some (bytesOfLanes (lanesOf p)) := by
  have e : ∀ (st : Bytes) k v, st.length = 200 → k ≤ 20 → maskStore st (8 * k) 0x1F v = some (Bytes.setAt st (8 * k) (wordsOf 5 v)) :=
    fun st k v hs hk => store_ok 5 (by decide) st (8 * k) v (by omega)
  have hl := length_wordsOf 5
  unfold copyToState
  simp only [Option.bind_eq_bind]
  rw [e st 0 _ h (by decide), Option.bind_some, e _ 5 _ (by simpa using h) (by decide), Option.bind_some,
    e _ 10 _ (by simpa using h) (by decide), Option.bind_some, e _ 15 _ (by simpa using h) (by decide), Option.bind_some,
    e _ 20 _ (by simpa using h) (by decide), bytesOfLanes_rows]
  have h5 : 8 * 5 = 8 * 0 + (wordsOf 5 p.b).length := by rw [hl]
  have h10 : 8 * 10 = 8 * 0 + (wordsOf 5 p.b ++ wordsOf 5 p.g).length := by rw [List.length_append, hl, hl]
  have h15 : 8 * 15 = 8 * 0 + (wordsOf 5 p.b ++ wordsOf 5 p.g ++ wordsOf 5 p.k).length := by
    rw [List.length_append, List.length_append, hl, hl, hl]
  have h20 : 8 * 20 = 8 * 0 + (wordsOf 5 p.b ++ wordsOf 5 p.g ++ wordsOf 5 p.k ++ wordsOf 5 p.m).length := by
    rw [List.length_append, List.length_append, List.length_append, hl, hl, hl, hl]
  rw [h5, Bytes.setAt_append, h10, Bytes.setAt_append, h15, Bytes.setAt_append, h20, Bytes.setAt_append]
  congr 1
  refine setAt_all _ _ ?_
  rw [List.length_append, List.length_append, List.length_append, List.length_append, hl, hl, hl, hl, hl, h]

theorem permute_of {f : Planes → Option Planes} {nr : Nat}
    (hf : ∀ p, ∃ p', f p = some p' ∧ lanesOf p' = run (24 - nr) nr (lanesOf p)) (st : Bytes) (h : st.length = 200) :
    ((copyFromState st).bind fun p => (f p).bind fun p => copyToState st p) = some (KeccakP1600.Ref.permuteNrounds nr st) := by
  obtain ⟨p, h1, h2⟩ := copyFromState_eq st h
  obtain ⟨p', h3, h4⟩ := hf p
  rw [h1, Option.bind_some, h3, Option.bind_some, copyToState_eq st h, h4, h2, KeccakP1600.Opt64.run_onWords]
  rfl

theorem permute12_eq (unr : Unrolling) (st : Bytes) (h : st.length = 200) :
    permute12 unr st = some (KeccakP1600.Ref.permuteNrounds 12 st) := permute_of (rounds12_eq unr) st h

theorem permute24_eq (unr : Unrolling) (st : Bytes) (h : st.length = 200) :
    permute24 unr st = some (KeccakP1600.Ref.permuteNrounds 24 st) := permute_of (rounds24_eq unr) st h

theorem permuteNrounds_eq (nr : Nat) (hnr : nr ≤ 24) (st : Bytes) (h : st.length = 200) :
    permuteNrounds st nr = some (KeccakP1600.Ref.permuteNrounds nr st) := by
  rw [← permute_of (nr := nr) (f := fun p => (oddRound nr p).bind fun r => (twoRounds r.2 r.1).bind fun r =>
    fourLoop 25 (first r.2) r.1) _ st h]
  · unfold permuteNrounds
    simp only [Option.bind_eq_bind, Option.bind_assoc]
  · intro p
    obtain ⟨p1, h1, h2⟩ := oddRound_eq nr hnr p
    obtain ⟨p2, h3, h4⟩ := twoRounds_eq (nr / 2 * 2) (by omega) (by omega) p1
    obtain ⟨p3, h5, h6⟩ := fourLoop_eq (nr / 4) 25 (24 - nr / 4 * 4) p2 (by omega) (by omega)
    refine ⟨p3, ?_, ?_⟩
    · rw [h1, Option.bind_some, h3, Option.bind_some, show nr / 2 * 2 / 4 * 4 = nr / 4 * 4 by omega, first_eq _ (by omega), h5]
    · have e : run (24 - nr) nr (lanesOf p) = run (24 - nr) (nr % 2 + (nr / 2 * 2 % 4 + 4 * (nr / 4))) (lanesOf p) := by
        congr 1; omega
      rw [e, run_add, run_add, h6, h4, h2, show 24 - nr + nr % 2 = 24 - nr / 2 * 2 by omega,
        show 24 - nr / 2 * 2 + nr / 2 * 2 % 4 = 24 - nr / 4 * 4 by omega]

end Plane512
