import Verif.Model.KeccakAvx512Asm
import Verif.Proofs.KeccakPlane512
import Verif.Proofs.X86Bytes

/-!
The rounds and the loop of the AVX-512 implementation in assembly are those of the reference implementation.
-/

namespace Avx512Asm

open KeccakP1600 (Lane Lanes rstep lane forall_fin25 wordOfBytes bytesOfWord bytesOfLanes)
open KeccakP1600.Opt64 (run run_add)
open Simd (Vec)

/-- The register `y`. -/
def row (s : Regs) (y : Nat) : Zmm :=
  match y with
  | 0 => s.z0
  | 1 => s.z1
  | 2 => s.z2
  | 3 => s.z3
  | _ => s.z4

/-- The state in the registers: a plane in each. -/
def lanesOf (s : Regs) : Lanes := fun i => (row s (i.val / 5)).at (i.val % 5)

/-- The state in the registers before the odd round: the lane (x, y) is in register x - y. -/
def lanesOdd (s : Regs) : Lanes := fun i => (row s ((i.val % 5 + 5 - i.val / 5) % 5)).at (i.val % 5)

theorem xor3_eq (a b c : Zmm) : vpternlogq 0x96 c b a = fun l => a l ^^^ b l ^^^ c l := Avx512.ternary_xor a b c

theorem chi_eq (a b c : Zmm) : vpternlogq 0xD2 c b a = fun l => a l ^^^ (~~~ b l &&& c l) := Avx512.ternary_chi a b c

theorem rol1_eq (a : Zmm) : vprolq 1 a = fun l => KeccakP1600.Ref.rol64 (a l) 1 := Plane512.roti1_eq a

/-- The parity of the column `x`. -/
def col (A : Lanes) (x : Fin 5) : Lane := A (lane x 0) ^^^ A (lane x 1) ^^^ A (lane x 2) ^^^ A (lane x 3) ^^^ A (lane x 4)

theorem thetaD_col (A : Lanes) (x : Fin 5) : KeccakP1600.Ref.thetaD A x.val = KeccakP1600.Ref.rol64 (col A (x + 1)) 1 ^^^ col A (x + 4) := by
  have h : ∀ x : Fin 5, KeccakP1600.Ref.thetaC A x.val = col A x := fun x => by
    rw [KeccakP1600.thetaC_eq, show (0 : Lane) = 0#64 from rfl, BitVec.zero_xor]; rfl
  rw [KeccakP1600.Opt64.thetaD_eq, ← h, ← h, BitVec.xor_comm]
  fin_cases x <;> rfl

theorem theta_lane (s : Regs) : ∀ x y : Fin 5, lanesOf (theta s) (lane x y) =
    lanesOf s (lane x y) ^^^ KeccakP1600.Ref.rol64 (col (lanesOf s) (x + 1)) 1 ^^^ col (lanesOf s) (x + 4) := by
  intro x y
  unfold theta
  simp -zeta only [xor3_eq, rol1_eq]
  fin_cases x <;> fin_cases y <;> rfl

theorem rho_lane (s : Regs) : ∀ x y : Fin 5, lanesOf (rho s) (lane x y) =
    KeccakP1600.Ref.rol64 (lanesOf s (lane x y)) (KeccakP1600.Ref.rhoOffsets.getD (lane x y).val 0) := by
  intro x y
  fin_cases x <;> fin_cases y <;> exact Plane512.rolv_at _ _ _

/-- Pi, chi and iota. -/
def rest (rc : Lane) (A : Lanes) (x y : Fin 5) : Lane :=
  let b := fun x y : Fin 5 => A (lane (x + 3 * y) x)
  let r := b x y ^^^ (~~~ b (x + 1) y &&& b (x + 2) y)
  if x = 0 ∧ y = 0 then r ^^^ rc else r

theorem even_lane (rc : Lane) (s : Regs) : ∀ x y : Fin 5,
    lanesOdd (harmonize { piChi s with z0 := vpxorqK1 rc (piChi s).z0 }) (lane x y) = rest rc (lanesOf s) x y := by
  intro x y
  unfold piChi
  simp -zeta only [chi_eq]
  fin_cases x <;> fin_cases y <;> rfl

theorem single_lane (rc : Lane) (s : Regs) : ∀ x y : Fin 5,
    lanesOf (harmonizeSingle { piChi s with z0 := vpxorqK1 rc (piChi s).z0 }) (lane x y) = rest rc (lanesOf s) x y := by
  intro x y
  unfold piChi
  simp -zeta only [chi_eq]
  fin_cases x <;> fin_cases y <;> rfl

theorem xor5_perm (a b c d e : Lane) : a ^^^ e ^^^ d ^^^ c ^^^ b = a ^^^ b ^^^ c ^^^ d ^^^ e ∧ b ^^^ a ^^^ e ^^^ d ^^^ c = a ^^^ b ^^^ c ^^^ d ^^^ e ∧
    c ^^^ b ^^^ a ^^^ e ^^^ d = a ^^^ b ^^^ c ^^^ d ^^^ e ∧ d ^^^ c ^^^ b ^^^ a ^^^ e = a ^^^ b ^^^ c ^^^ d ^^^ e ∧
    e ^^^ d ^^^ c ^^^ b ^^^ a = a ^^^ b ^^^ c ^^^ d ^^^ e := by
  refine ⟨?_, ?_, ?_, ?_, ?_⟩ <;> ac_rfl

/-- The parities, in the order of the registers. -/
theorem col_odd (s : Regs) : ∀ x : Fin 5, s.z0.at x.val ^^^ s.z1.at x.val ^^^ s.z2.at x.val ^^^ s.z3.at x.val ^^^ s.z4.at x.val =
    col (lanesOdd s) x := by
  intro x
  have h := fun a b c d e => xor5_perm a b c d e
  fin_cases x
  · exact (h _ _ _ _ _).1
  · exact (h _ _ _ _ _).2.1
  · exact (h _ _ _ _ _).2.2.1
  · exact (h _ _ _ _ _).2.2.2.1
  · exact (h _ _ _ _ _).2.2.2.2

theorem thetaOdd_lane (s : Regs) : ∀ x y : Fin 5, lanesOdd (thetaOdd s) (lane x y) =
    lanesOdd s (lane x y) ^^^ KeccakP1600.Ref.rol64 (col (lanesOdd s) (x + 1)) 1 ^^^ col (lanesOdd s) (x + 4) := by
  intro x y
  rw [← col_odd, ← col_odd]
  unfold thetaOdd
  simp -zeta only [xor3_eq, rol1_eq]
  fin_cases x <;> fin_cases y <;> rfl

/-- The registers between "Rho" and "Pi", in the order of the planes they come from. -/
def Mid.regs (m : Mid) : Regs := ⟨m.z0, m.z7, m.z9, m.z6, m.z8⟩

theorem rhoOdd_lane (s : Regs) : ∀ x y : Fin 5, lanesOdd (rhoOdd s).regs (lane x y) =
    KeccakP1600.Ref.rol64 (lanesOdd s (lane x y)) (KeccakP1600.Ref.rhoOffsets.getD (lane x y).val 0) := by
  intro x y
  fin_cases x <;> fin_cases y <;> exact Plane512.rolv_at _ _ _

theorem xor_swap (a b c : Lane) : a ^^^ b ^^^ c = a ^^^ c ^^^ b := by ac_rfl

theorem odd_lane (rc : Lane) (m : Mid) : ∀ x y : Fin 5, lanesOf (piChiOdd rc m) (lane x y) = rest rc (lanesOdd m.regs) x y := by
  intro x y
  unfold piChiOdd
  simp -zeta only [chi_eq]
  fin_cases x <;> fin_cases y <;> first | rfl | exact xor_swap _ _ _

/-- Theta and rho followed by pi, chi and iota are a round. -/
theorem rstep_of (rc : Lane) (A B C : Lanes)
    (hB : ∀ x y : Fin 5, B (lane x y) = KeccakP1600.Ref.rol64
      (A (lane x y) ^^^ KeccakP1600.Ref.rol64 (col A (x + 1)) 1 ^^^ col A (x + 4)) (KeccakP1600.Ref.rhoOffsets.getD (lane x y).val 0))
    (hC : ∀ x y : Fin 5, C (lane x y) = rest rc B x y) : C = rstep rc A := by
  funext j
  revert j
  apply forall_fin25
  intro x y
  have hb : ∀ x y : Fin 5, B (lane (x + 3 * y) x) = KeccakP1600.bl (KeccakP1600.Ref.thetaD A) A x y := by
    intro x y
    rw [hB, KeccakP1600.bl, thetaD_col, BitVec.xor_assoc]
  rw [hC, KeccakP1600.rstep_lane, rest]
  simp only [hb]

theorem even_eq (rc : Lane) (s : Regs) : lanesOdd (harmonize (evenRound rc s)) = rstep rc (lanesOf s) := by
  refine rstep_of rc (lanesOf s) (lanesOf (rho (theta s))) _ (fun x y => ?_) (even_lane rc _)
  rw [rho_lane, theta_lane]

theorem single_eq (rc : Lane) (s : Regs) : lanesOf (harmonizeSingle (evenRound rc s)) = rstep rc (lanesOf s) := by
  refine rstep_of rc (lanesOf s) (lanesOf (rho (theta s))) _ (fun x y => ?_) (single_lane rc _)
  rw [rho_lane, theta_lane]

theorem odd_eq (rc : Lane) (s : Regs) : lanesOf (piChiOdd rc (rhoOdd (thetaOdd s))) = rstep rc (lanesOdd s) := by
  refine rstep_of rc (lanesOdd s) (lanesOdd (rhoOdd (thetaOdd s)).regs) _ (fun x y => ?_) (odd_lane rc _)
  rw [rhoOdd_lane, thetaOdd_lane]

theorem quad_iotas (i : Nat) (hi : i < 24) : quad iotas (8 * i) = some (KeccakP1600.Ref.roundConstants.getD i 0) := by
  have h : ∀ i : Fin 24, quad iotas (8 * i.val) = some (KeccakP1600.Ref.roundConstants.getD i.val 0) := by decide
  exact h ⟨i, hi⟩

theorem doubleRound_eq (i : Nat) (hi : i + 2 ≤ 24) (s : Regs) :
    ∃ s', doubleRound (8 * i) s = some s' ∧ lanesOf s' = run i 2 (lanesOf s) := by
  unfold doubleRound
  simp only [Option.bind_eq_bind]
  rw [quad_iotas i (by omega), show 8 * i + 16 - 8 = 8 * (i + 1) by omega, quad_iotas (i + 1) (by omega)]
  refine ⟨_, rfl, ?_⟩
  rw [odd_eq, even_eq]
  rfl

theorem keccakF1600_eq : ∀ (n fuel i : Nat) (s : Regs), n < fuel → i + 2 * (n + 1) ≤ 24 →
    ∃ s', keccakF1600 fuel (8 * i) (n + 1) s = some s' ∧ lanesOf s' = run i (2 * (n + 1)) (lanesOf s) := by
  intro n
  induction n with
  | zero =>
    intro fuel i s hf hi
    obtain ⟨fuel, rfl⟩ : ∃ f, fuel = f + 1 := ⟨fuel - 1, by omega⟩
    obtain ⟨s1, h1, h2⟩ := doubleRound_eq i (by omega) s
    refine ⟨s1, ?_, h2⟩
    rw [keccakF1600, h1, Option.bind_eq_bind, Option.bind_some]
    rfl
  | succ n ih =>
    intro fuel i s hf hi
    obtain ⟨fuel, rfl⟩ : ∃ f, fuel = f + 1 := ⟨fuel - 1, by omega⟩
    obtain ⟨s1, h1, h2⟩ := doubleRound_eq i (by omega) s
    obtain ⟨s2, h3, h4⟩ := ih fuel (i + 2) s1 (by omega) (by omega)
    refine ⟨s2, ?_, ?_⟩
    · rw [keccakF1600, h1, Option.bind_eq_bind, Option.bind_some]
      simp only
      rw [show (2 ^ 32 + (n + 1 + 1) - 1) % 2 ^ 32 = n + 1 by omega, if_pos (by omega), ← h3]
      rfl
    · rw [h4, h2, Nat.mul_succ 2 (n + 1), Nat.add_comm (2 * (n + 1)), run_add]

/-! ### Loads and stores -/

/-- The registers as the planes of the implementation in C. -/
def toPlanes (s : Regs) : Plane512.Planes := ⟨s.z0, s.z1, s.z2, s.z3, s.z4⟩

theorem lanesOf_toPlanes (s : Regs) : Plane512.lanesOf (toPlanes s) = lanesOf s := by
  funext i
  fin_cases i <;> rfl

theorem loadState_eq (st : Bytes) (h : st.length = 200) : ∃ s, loadState st = some s ∧ lanesOf s = KeccakP1600.lanesOfBytes st := by
  have e : ∀ k, k ≤ 4 → Plane512.maskzLoad k6 st (40 * k) =
      some fun i => if i.val < 5 then wordOfBytes (st.drop (40 * k + 8 * i.val)) else 0 := fun k hk =>
    Plane512.load_ok 5 st (40 * k) (by omega)
  unfold loadState
  rw [e 0 (by decide), e 1 (by decide), e 2 (by decide), e 3 (by decide), e 4 (by decide)]
  refine ⟨_, rfl, ?_⟩
  funext i
  fin_cases i <;> rfl

theorem saveState_eq (s : Regs) (st : Bytes) (h : st.length = 200) : saveState s st = some (bytesOfLanes (lanesOf s)) := by
  rw [← lanesOf_toPlanes, ← Plane512.copyToState_eq st h]
  rfl

theorem length_lanes (A : Lanes) : (bytesOfLanes A).length = 200 := KeccakP1600.length_bytesOfLanes A

theorem permute_of {f : Regs → Option Regs} {nr : Nat}
    (hf : ∀ s, ∃ s', f s = some s' ∧ lanesOf s' = run (24 - nr) nr (lanesOf s)) (st : Bytes) (h : st.length = 200) :
    ((loadState st).bind fun s => (f s).bind fun s => saveState s st) = some (KeccakP1600.Ref.permuteNrounds nr st) := by
  obtain ⟨s, h1, h2⟩ := loadState_eq st h
  obtain ⟨s', h3, h4⟩ := hf s
  rw [h1, Option.bind_some, h3, Option.bind_some, saveState_eq _ st h, h4, h2, KeccakP1600.Opt64.run_onWords]
  rfl

theorem permute12_eq (st : Bytes) (h : st.length = 200) : permute12 st = some (KeccakP1600.Ref.permuteNrounds 12 st) :=
  permute_of (nr := 12) (fun s => keccakF1600_eq 5 (2 ^ 32) 12 s (by decide) (by decide)) st h

theorem permute24_eq (st : Bytes) (h : st.length = 200) : permute24 st = some (KeccakP1600.Ref.permuteNrounds 24 st) :=
  permute_of (nr := 24) (fun s => keccakF1600_eq 11 (2 ^ 32) 0 s (by decide) (by decide)) st h

theorem singleRound_eq (nr : Nat) (hnr : nr ≤ 24) (s : Regs) :
    ∃ s', singleRound (8 * (24 - nr)) nr s = some (s', 8 * (24 - nr / 2 * 2)) ∧ lanesOf s' = run (24 - nr) (nr % 2) (lanesOf s) := by
  unfold singleRound
  rw [Nat.and_one_is_mod]
  by_cases h : nr % 2 = 0
  · refine ⟨s, ?_, by rw [h]; rfl⟩
    rw [if_pos h, show nr / 2 * 2 = nr by omega]
  · rw [if_neg h, quad_iotas _ (by omega)]
    refine ⟨harmonizeSingle (evenRound (KeccakP1600.Ref.roundConstants.getD (24 - nr) 0) s), ?_, ?_⟩
    · rw [show 24 - nr / 2 * 2 = 24 - nr + 1 by omega]
      rfl
    · rw [single_eq, show nr % 2 = 1 by omega]
      rfl

theorem doubleRounds_eq (nr : Nat) (hnr : nr ≤ 24) (s : Regs) :
    ∃ s', doubleRounds (8 * (24 - nr / 2 * 2)) nr s = some s' ∧ lanesOf s' = run (24 - nr / 2 * 2) (nr / 2 * 2) (lanesOf s) := by
  unfold doubleRounds
  simp only
  rw [Nat.shiftRight_eq_div_pow, Nat.pow_one]
  by_cases h : nr / 2 = 0
  · refine ⟨s, by rw [if_pos h], by rw [h]; rfl⟩
  · rw [if_neg h]
    obtain ⟨n, hn⟩ : ∃ n, nr / 2 = n + 1 := ⟨nr / 2 - 1, by omega⟩
    obtain ⟨s', h1, h2⟩ := keccakF1600_eq n (2 ^ 32) (24 - nr / 2 * 2) s (by omega) (by omega)
    refine ⟨s', ?_, ?_⟩
    · rw [← h1, hn]
    · rw [h2, hn, Nat.mul_comm]

theorem permuteNrounds_eq (nr : Nat) (hnr : nr ≤ 24) (st : Bytes) (h : st.length = 200) :
    permuteNrounds st nr = some (KeccakP1600.Ref.permuteNrounds nr st) := by
  rw [← permute_of (nr := nr) (f := fun s => (singleRound (8 * (24 - nr)) nr s).bind fun r => doubleRounds r.2 nr r.1) _ st h]
  · unfold permuteNrounds
    simp only [Option.bind_eq_bind, Option.bind_assoc]
    congr 1
    funext s
    rw [if_pos (by omega), show 24 * 8 - nr * 2 ^ 3 = 8 * (24 - nr) by omega]
  · intro s
    obtain ⟨s1, h1, h2⟩ := singleRound_eq nr hnr s
    obtain ⟨s2, h3, h4⟩ := doubleRounds_eq nr hnr s1
    refine ⟨s2, by rw [h1, Option.bind_some, h3], ?_⟩
    have e : run (24 - nr) nr (lanesOf s) = run (24 - nr) (nr % 2 + nr / 2 * 2) (lanesOf s) := by congr 1; omega
    rw [e, run_add, h4, h2, show 24 - nr + nr % 2 = 24 - nr / 2 * 2 by omega]

end Avx512Asm
