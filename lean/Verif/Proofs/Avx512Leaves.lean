import Verif.Proofs.Avx512Fast
import Verif.Props.KangarooTwelve

/-!
The functions `KT128ProcessLeaves` and `KT256ProcessLeaves` of the AVX-512 implementation of eight states.
-/

namespace Avx512

open Simd
open PlSpec (InBuf)
open KeccakP1600 (Lane byteOf bytesOfLanes)

/-! ### Input -/

/-- The vectors of `R8`. -/
def R8.get (t : R8) : Fin 8 → Vec 8 := fun j => match j with
  | 0 => t.r0 | 1 => t.r1 | 2 => t.r2 | 3 => t.r3 | 4 => t.r4 | 5 => t.r5 | 6 => t.r6 | 7 => t.r7

/-- `LoadAndTranspose8` transposes. -/
theorem transpose8_get (t : R8) (j k : Fin 8) : (transpose8 t).get j k = t.get k j := by
  fin_cases j <;> fin_cases k <;> rfl

theorem load8_ok {data : Bytes} (p : Nat) (hd : 8 * (p + 7 * 1024 + 8) ≤ data.length) :
    ∃ t, load8 data p = some t ∧ ∀ k j : Fin 8, t.get k j = wd data (k.val * 1024 + (p + j.val)) := by
  have h : ∀ k : Fin 8, loadVec 8 data (8 * (p + k.val * 8192 / 8)) = some fun l => wd data (k.val * 1024 + (p + l.val)) := fun k => by
    rw [show k.val * 8192 / 8 = k.val * 1024 by omega, loadVec_ok 8 data (p + k.val * 1024) (by omega)]
    congr 1
    funext l
    congr 1; omega
  refine ⟨⟨fun l => wd data (0 * 1024 + (p + l.val)), fun l => wd data (1 * 1024 + (p + l.val)), fun l => wd data (2 * 1024 + (p + l.val)),
    fun l => wd data (3 * 1024 + (p + l.val)), fun l => wd data (4 * 1024 + (p + l.val)), fun l => wd data (5 * 1024 + (p + l.val)),
    fun l => wd data (6 * 1024 + (p + l.val)), fun l => wd data (7 * 1024 + (p + l.val))⟩, ?_, fun k j => by fin_cases k <;> rfl⟩
  unfold load8
  simp only [Option.bind_eq_bind]
  rw [show loadVec 8 data (8 * (p + 0 * 8192 / 8)) = _ from h 0, Option.bind_some, show loadVec 8 data (8 * (p + 1 * 8192 / 8)) = _ from h 1,
    Option.bind_some, show loadVec 8 data (8 * (p + 2 * 8192 / 8)) = _ from h 2, Option.bind_some,
    show loadVec 8 data (8 * (p + 3 * 8192 / 8)) = _ from h 3, Option.bind_some, show loadVec 8 data (8 * (p + 4 * 8192 / 8)) = _ from h 4,
    Option.bind_some, show loadVec 8 data (8 * (p + 5 * 8192 / 8)) = _ from h 5, Option.bind_some,
    show loadVec 8 data (8 * (p + 6 * 8192 / 8)) = _ from h 6, Option.bind_some, show loadVec 8 data (8 * (p + 7 * 8192 / 8)) = _ from h 7,
    Option.bind_some]
  rfl

theorem leafIndex_ok : IdxOk 8 8 1024 leafIndex := by
  intro i hi
  interval_cases i <;> decide +kernel

/-- The first `lc` lanes of the chunks were added to the variables. -/
def Added (lc : Nat) (data : Bytes) (A A' : V (Vec 8)) : Prop :=
  ∀ p < 25, A'.get p = if p < lc then Simd.xor (A.get p) (fun l => wd data (l.val * 1024 + p)) else A.get p

theorem acc_of {lo lc : Nat} {data : Bytes} (h : 8 * (lo * 8) < 2 ^ 32) (hd : 7 * (lo * 8) + lc * 8 ≤ data.length) : Acc 8 lo lc data :=
  Acc.of h fun k hk => Nat.le_trans (Nat.add_le_add_right (Nat.mul_le_mul_right _ (by omega)) _) hd

theorem acc_leaf {lc : Nat} {data : Bytes} (hd : 7 * 8192 + lc * 8 ≤ data.length) : Acc 8 1024 lc data := acc_of (by decide) hd

variable {data : Bytes}

theorem xorData4_ok (hd : 7 * 8192 + 4 * 8 ≤ data.length) (A : V (Vec 8)) :
    ∃ A', xorData4 leafIndex data A = some A' ∧ Added 4 data A A' := by
  have h := fun x p hp => addVar_eq (N := 8) leafIndex_ok (by omega) (acc_leaf hd) x p hp
  let x : Nat → Vec 8 → Vec 8 := fun p v => Simd.xor v fun l => wd data (l.val * 1024 + p)
  refine ⟨⟨x 0 A.ba, x 1 A.be, x 2 A.bi, x 3 A.bo, A.bu, A.ga, A.ge, A.gi, A.go, A.gu, A.ka, A.ke, A.ki, A.ko, A.ku, A.ma, A.me, A.mi, A.mo, A.mu, A.sa, A.se, A.si, A.so, A.su⟩, ?_, ?_⟩
  · unfold xorData4
    simp only [Option.bind_eq_bind, h, Nat.reduceLT, Option.bind_some]
    rfl
  · intro p hp
    interval_cases p <;> rfl

theorem xorData16_ok (hd : 7 * 8192 + 16 * 8 ≤ data.length) (A : V (Vec 8)) :
    ∃ A', xorData16 data A = some A' ∧ Added 16 data A A' := by
  obtain ⟨t, e1, h1⟩ := load8_ok (data := data) 0 (by omega)
  obtain ⟨u, e2, h2⟩ := load8_ok (data := data) 8 (by omega)
  have g1 : ∀ j : Fin 8, (transpose8 t).get j = fun l => wd data (l.val * 1024 + j.val) := fun j => funext fun l => by
    rw [transpose8_get, h1, Nat.zero_add]
  have g2 : ∀ j : Fin 8, (transpose8 u).get j = fun l => wd data (l.val * 1024 + (8 + j.val)) := fun j => funext fun l => by
    rw [transpose8_get, h2]
  let x : Nat → Vec 8 → Vec 8 := fun p v => Simd.xor v fun l => wd data (l.val * 1024 + p)
  refine ⟨⟨x 0 A.ba, x 1 A.be, x 2 A.bi, x 3 A.bo, x 4 A.bu, x 5 A.ga, x 6 A.ge, x 7 A.gi, x 8 A.go, x 9 A.gu, x 10 A.ka, x 11 A.ke, x 12 A.ki, x 13 A.ko, x 14 A.ku, x 15 A.ma, A.me, A.mi, A.mo, A.mu, A.sa, A.se, A.si, A.so, A.su⟩, ?_, ?_⟩
  · unfold xorData16
    simp only [Option.bind_eq_bind]
    rw [e1, Option.bind_some, e2, Option.bind_some]
    have a0 := g1 0
    have a1 := g1 1
    have a2 := g1 2
    have a3 := g1 3
    have a4 := g1 4
    have a5 := g1 5
    have a6 := g1 6
    have a7 := g1 7
    have b0 := g2 0
    have b1 := g2 1
    have b2 := g2 2
    have b3 := g2 3
    have b4 := g2 4
    have b5 := g2 5
    have b6 := g2 6
    have b7 := g2 7
    generalize transpose8 t = t' at *
    generalize transpose8 u = u' at *
    simp only [R8.get] at a0 a1 a2 a3 a4 a5 a6 a7 b0 b1 b2 b3 b4 b5 b6 b7
    rw [a0, a1, a2, a3, a4, a5, a6, a7, b0, b1, b2, b3, b4, b5, b6, b7]
    rfl
  · intro p hp
    interval_cases p <;> rfl

theorem xorData17_ok (hd : 7 * 8192 + 17 * 8 ≤ data.length) (A : V (Vec 8)) :
    ∃ A', xorData17 leafIndex data A = some A' ∧ Added 17 data A A' := by
  obtain ⟨B, e, hB⟩ := xorData16_ok (data := data) (by omega) A
  have h := addVar_eq (N := 8) leafIndex_ok (by omega) (acc_leaf hd) B.me 16 (by omega)
  refine ⟨{ B with me := Simd.xor B.me fun l => wd data (l.val * 1024 + 16) }, ?_, ?_⟩
  · unfold xorData17
    simp only [Option.bind_eq_bind]
    rw [e, Option.bind_some, h, Option.bind_some]
  · intro p hp
    have := hB p hp
    by_cases h16 : p = 16
    · subst h16
      show Simd.xor B.me _ = _
      rw [if_pos (by omega)]
      rw [if_neg (by omega)] at this
      exact congrArg (fun v => Simd.xor v _) this
    · have e2 : V.get { B with me := Simd.xor B.me fun l => wd data (l.val * 1024 + 16) } p = B.get p := by
        interval_cases p <;> first | rfl | exact absurd rfl h16
      rw [e2, this]
      by_cases h3 : p < 16
      · rw [if_pos h3, if_pos (by omega)]
      · rw [if_neg h3, if_neg (by omega)]

theorem xorData21_ok (hd : 7 * 8192 + 21 * 8 ≤ data.length) (A : V (Vec 8)) :
    ∃ A', xorData21 leafIndex data A = some A' ∧ Added 21 data A A' := by
  obtain ⟨B, e, hB⟩ := xorData17_ok (data := data) (by omega) A
  have h := fun x p hp => addVar_eq (N := 8) leafIndex_ok (by omega) (acc_leaf hd) x p hp
  let x : Nat → Vec 8 → Vec 8 := fun p v => Simd.xor v fun l => wd data (l.val * 1024 + p)
  refine ⟨{ B with mi := x 17 B.mi, mo := x 18 B.mo, mu := x 19 B.mu, sa := x 20 B.sa }, ?_, ?_⟩
  · unfold xorData21
    simp only [Option.bind_eq_bind]
    rw [e, Option.bind_some]
    simp only [h, Nat.reduceLT, Option.bind_some]
    rfl
  · intro p hp
    have hp' := hB p hp
    by_cases h17 : 17 ≤ p ∧ p < 21
    · rw [if_neg (by omega)] at hp'
      rw [if_pos h17.2, ← hp']
      obtain ⟨h1, h2⟩ := h17
      clear hp'
      interval_cases p <;> rfl
    · have e2 : V.get { B with mi := x 17 B.mi, mo := x 18 B.mo, mu := x 19 B.mu, sa := x 20 B.sa } p = B.get p := by
        clear hp'
        interval_cases p <;> first | rfl | exact absurd (by decide) h17
      rw [e2, hp']
      by_cases h3 : p < 17
      · rw [if_pos h3, if_pos (by omega)]
      · rw [if_neg h3, if_neg (by omega)]

theorem Added.state {lc : Nat} {A A' : V (Vec 8)} (h : Added lc data A A') (k : Nat) (hk : k < 8) :
    stateOf A' k = Bytes.xorAt (stateOf A k) 0 ((data.drop (k * 8192)).take (lc * 8)) :=
  stateOf_xor (lp := 1024) k hk h

/-! ### The loop -/

theorem leafLoop_ok {lc : Nat} {xd : Bytes → V (Vec 8) → Option (V (Vec 8))} {R : V (Vec 8) → V (Vec 8)} {F : Bytes → Bytes}
    (hx : ∀ data A, 7 * 8192 + lc * 8 ≤ data.length → ∃ A', xd data A = some A' ∧ Added lc data A A')
    (hR : ∀ A, ∀ k < 8, stateOf (R A) k = F (stateOf A k)) :
    ∀ (n j fuel : Nat) (input : Bytes) (A : V (Vec 8)), (∀ t ≤ n, (j + t * (lc * 8) < 8192 - lc * 8 ↔ t < n)) → n < fuel →
      7 * 8192 + n * (lc * 8) ≤ input.length →
      ∃ A', leafLoop (lc * 8) xd R fuel j input A = some (A', input.drop (n * (lc * 8))) ∧
        ∀ k < 8, stateOf A' k = SnP.absorbBlocks F (lc * 8) n (stateOf A k) (input.drop (k * 8192)) := by
  intro n
  induction n with
  | zero =>
    intro j fuel input A hj hf hl
    obtain ⟨fuel, rfl⟩ : ∃ m, fuel = m + 1 := ⟨fuel - 1, by omega⟩
    have := hj 0 (by omega)
    refine ⟨A, ?_, fun k _ => rfl⟩
    rw [leafLoop, if_neg (by omega), Nat.zero_mul, List.drop_zero]
  | succ n ih =>
    intro j fuel input A hj hf hl
    obtain ⟨fuel, rfl⟩ : ∃ m, fuel = m + 1 := ⟨fuel - 1, by omega⟩
    have h0 := hj 0 (by omega)
    rw [Nat.add_mul, Nat.one_mul] at hl
    obtain ⟨A1, e1, a1⟩ := hx input A (by omega)
    obtain ⟨A2, e2, s2⟩ := ih (j + lc * 8) fuel (input.drop (lc * 8)) (R A1) (fun t ht => by
      have := hj (t + 1) (by omega)
      rw [Nat.add_mul, Nat.one_mul] at this
      rw [show j + lc * 8 + t * (lc * 8) = j + (t * (lc * 8) + lc * 8) by omega, this]; omega) (by omega) (by rw [List.length_drop]; omega)
    refine ⟨A2, ?_, fun k hk => ?_⟩
    · rw [leafLoop, if_pos (by omega)]
      simp only [Option.bind_eq_bind]
      rw [e1, Option.bind_some, e2, List.drop_drop, Nat.add_mul, Nat.one_mul, Nat.add_comm (lc * 8)]
    · rw [s2 k hk, hR _ k hk, a1.state k hk, SnP.absorbBlocks, List.drop_drop, List.drop_drop, Nat.add_comm (lc * 8)]

theorem stateOf_init (k : Nat) (hk : k < 8) : stateOf initializeState k = Bytes.zeros 200 := by
  unfold stateOf
  apply bytes_ext (by simp [KeccakP1600.length_bytesOfLanes])
  intro j hj
  rw [KeccakP1600.length_bytesOfLanes] at hj
  rw [getD_bytesOfLanes _ _ hj, Interleaved.getD_zeros, lanesOf_get]
  have h : ∀ p < 25, initializeState.get p = set1 0 := fun p hp => by interval_cases p <;> rfl
  simp only
  rw [h _ (by omega), Vec.at, dif_pos hk]
  show byteOf 0 (j % 8) = 0
  unfold byteOf
  simp

/-- A constant added to the lane `q` of every state, with one byte different from zero. -/
theorem stateOf_const {A A' : V (Vec 8)} (q r : Nat) (b : Byte) (w : Lane) (hr : r < 8)
    (hw : ∀ j < 8, byteOf w j = if j = r then b else 0)
    (h : ∀ p < 25, A'.get p = if p = q then Simd.xor (A.get p) (set1 w) else A.get p) (k : Nat) (hk : k < 8) :
    stateOf A' k = Bytes.xorAt (stateOf A k) (8 * q + r) [b] := by
  unfold stateOf
  apply bytes_ext (by simp [KeccakP1600.length_bytesOfLanes])
  intro j hj
  rw [KeccakP1600.length_bytesOfLanes] at hj
  rw [getD_xorAt_off _ _ _ _ (by rw [KeccakP1600.length_bytesOfLanes]; exact hj), getD_bytesOfLanes _ _ hj, getD_bytesOfLanes _ _ hj, lanesOf_get,
    lanesOf_get]
  simp only [List.length_cons, List.length_nil, Nat.zero_add]
  rw [h (j / 8) (by omega)]
  by_cases hc : j / 8 = q
  · rw [if_pos hc]
    have e : (Simd.xor (A.get (j / 8)) (set1 w)).at k = (A.get (j / 8)).at k ^^^ w := by
      simp only [Vec.at, dif_pos hk]; rfl
    rw [e, KeccakP1600.byteOf_xor, hw _ (by omega)]
    by_cases hc2 : j % 8 = r
    · rw [if_pos hc2, if_pos (by omega), show j - (8 * q + r) = 0 by omega]; rfl
    · rw [if_neg hc2, if_neg (by omega)]; exact BitVec.xor_zero
  · rw [if_neg hc, if_neg (by omega)]

/-! ### Output -/

theorem setAt_end (a c d : Bytes) (h : d.length ≤ c.length) : Bytes.setAt (a ++ c) a.length d = a ++ d ++ c.drop d.length := by
  apply bytes_ext
  · simp; omega
  · intro j hj
    rw [getD_setAt _ _ _ _ (by simp; omega)]
    simp only [List.getD_eq_getElem?_getD]
    by_cases h1 : j < a.length
    · rw [if_neg (by omega), List.append_assoc, List.getElem?_append_left h1, List.getElem?_append_left h1]
    · rw [List.append_assoc, List.getElem?_append_right (by omega), List.getElem?_append_right (by omega)]
      by_cases h2 : j < a.length + d.length
      · rw [if_pos (by omega), List.getElem?_append_left (by omega)]
      · rw [if_neg (by omega), List.getElem?_append_right (by omega), List.getElem?_drop]
        congr 2; omega

/-- Pieces that fill the buffer without gaps. -/
theorem strided_full (piece : Nat → Bytes) (s n : Nat) (out : Bytes) (hp : ∀ k, (piece k).length = s) (h : n * s ≤ out.length) :
    PlSpec.strided piece s n out = (List.range n).flatMap piece ++ out.drop (n * s) := by
  have hl : ∀ n, ((List.range n).flatMap piece).length = n * s := by
    intro n; induction n with
    | zero => simp
    | succ n ih => rw [List.range_succ, List.flatMap_append, List.length_append, ih, List.flatMap_singleton, hp, Nat.add_mul, Nat.one_mul]
  induction n with
  | zero => simp [PlSpec.strided]
  | succ n ih =>
    rw [Nat.add_mul, Nat.one_mul] at h
    rw [PlSpec.strided, ih (by omega)]
    have := setAt_end ((List.range n).flatMap piece) (out.drop (n * s)) (piece n) (by rw [hp, List.length_drop]; omega)
    rw [hl] at this
    rw [this, List.range_succ, List.flatMap_append, List.flatMap_singleton, hp, List.drop_drop, Nat.add_mul, Nat.one_mul]

theorem scatter_lane {cv : Nat} (hcv : cv * 8 ≤ 200) {idx : Nat → BitVec 32} (hidx : IdxOk 8 8 cv idx) {A : V (Vec 8)} {out o : Bytes}
    (ho : 8 * (cv * 8) ≤ out.length) (p : Nat) (hp : p < cv) (h : OUpd cv out o 0 8 0 p (fun k p => (A.get p).at k)) :
    ∃ o', scatter o (8 * p) idx (A.get p) = some o' ∧ OUpd cv out o' 0 8 0 (p + 1) (fun k p => (A.get p).at k) := by
  have ha : Acc 8 cv cv out := ⟨fun k hk => by
      have : cv * k ≤ 25 * k := Nat.mul_le_mul_right _ (by omega)
      omega, fun k hk => by
      have : (k + 1) * (cv * 8) ≤ 8 * (cv * 8) := Nat.mul_le_mul_right _ (by omega)
      rw [Nat.add_mul] at this; omega⟩
  obtain ⟨o', e, u⟩ := scatter_upd hidx (by omega) (Nat.mul_one 8).symm (by omega) (ha.congr h.len) (Nat.le_refl _) p (by omega) (A.get p)
    (g := fun k p => (A.get p).at k) fun i => by
      rw [Nat.mod_eq_of_lt i.isLt, Nat.div_eq_of_lt i.isLt, Nat.add_zero, Vec.at, dif_pos i.isLt]
  exact ⟨o', e, h.cols u (by omega) (by omega)⟩

theorem output_eq {cv : Nat} (hcv : cv * 8 ≤ 200) (h0 : 0 < cv) {A : V (Vec 8)} {out o : Bytes} (ho : 8 * (cv * 8) ≤ out.length)
    (h : OUpd cv out o 0 8 0 cv (fun k p => (A.get p).at k)) :
    o = ((List.range 8).flatMap fun k => Bytes.slice (stateOf A k) 0 (cv * 8)) ++ out.drop (8 * (cv * 8)) := by
  have hl : ∀ k, (Bytes.slice (stateOf A k) 0 (cv * 8)).length = cv * 8 := fun k =>
    Bytes.length_slice_of_le (by unfold stateOf; rw [KeccakP1600.length_bytesOfLanes]; omega)
  rw [← strided_full _ _ _ _ hl ho]
  refine h.strided _ hl (Nat.le_refl _) h0 (fun k hk => ?_) fun k hk p hp r hr => ?_
  · have : (k + 1) * (cv * 8) ≤ 8 * (cv * 8) := Nat.mul_le_mul_right _ (by omega)
    rw [Nat.add_mul] at this; omega
  · rw [getD_slice, if_pos (by omega), Nat.zero_add]
    unfold stateOf
    rw [getD_bytesOfLanes _ _ (by omega), lanesOf_get]
    simp only
    rw [show (8 * p + r) / 8 = p by omega, show (8 * p + r) % 8 = r by omega]

/-! ### The two functions -/

/-- The permutation used in KangarooTwelve. -/
abbrev P12 : SnP := KeccakP1600.Ref.snp 12

theorem P12_ok : KeccakP1600.Computes P12 12 := KeccakP1600.Ref.computes 12 (by decide)

theorem rounds12_state (unr : Unrolling) (A : V (Vec 8)) (k : Nat) (hk : k < 8) :
    stateOf (rounds12 (ops 8) unr A) k = P12.permute (stateOf A k) :=
  rounds_stateOf (n := 12) (fun l s => rounds12_ok (ops_ok l) unr s) A k hk

/-- The chaining value of a leaf, block by block. -/
theorem leaf_eq {r cv : Nat} (hr : 0 < r) (hr2 : r ≤ 200) (hcv : cv ≤ r) (x : Bytes) (hx : 8192 ≤ x.length) :
    Sponge.out P12 r (x.take 8192) 0x0B cv = Bytes.slice (P12.permute (Bytes.xorAt (Bytes.xorAt (Bytes.xorAt
      (SnP.absorbBlocks P12.permute r (8192 / r) (Bytes.zeros 200) x) 0 ((x.drop (8192 / r * r)).take (8192 % r)))
      (8192 % r) [0x0B]) (r - 1) [0x80])) 0 cv := by
  have hl : (x.take 8192).length = 8192 := by rw [List.length_take]; omega
  rw [PlSnP.leaf_out P12_ok.valid hr hr2 _ (by decide) cv hcv, hl, PlSnP.absorbBlocks_take _ _ _ _ _ _ (Nat.div_mul_le_self _ _), List.drop_take]
  have := Nat.div_add_mod 8192 r
  rw [Nat.mul_comm] at this
  rw [show 8192 - 8192 / r * r = 8192 % r by omega]
  rfl

theorem kt128_ok (unr : Unrolling) (input out : Bytes) (hi : 8 * 8192 ≤ input.length) (ho : 8 * 32 ≤ out.length) :
    kt128ProcessLeaves unr input out = some (PlSnP.leafCVs P12 168 8192 0x0B 32 8 input ++ out.drop (8 * 32)) := by
  obtain ⟨A, e, hA⟩ := leafLoop_ok (lc := 21) (F := P12.permute) (fun data A hd => xorData21_ok hd A) (rounds12_state unr) 48 0 8192 input
    initializeState (fun t ht => by omega) (by omega) (by omega)
  obtain ⟨A1, e1, a1⟩ := xorData16_ok (data := input.drop (48 * (21 * 8))) (by rw [List.length_drop]; omega) A
  let A2 : V (Vec 8) := { A1 with me := Simd.xor A1.me (set1 0x0B) }
  let A3 : V (Vec 8) := { A2 with sa := Simd.xor A2.sa (set1 0x8000000000000000) }
  have s2 : ∀ k < 8, stateOf A2 k = Bytes.xorAt (stateOf A1 k) (8 * 16 + 0) [0x0B] := fun k hk =>
    stateOf_const 16 0 0x0B 0x0B (by omega) (fun j hj => by interval_cases j <;> rfl) (fun p hp => by interval_cases p <;> rfl) k hk
  have s3 : ∀ k < 8, stateOf A3 k = Bytes.xorAt (stateOf A2 k) (8 * 20 + 7) [0x80] := fun k hk =>
    stateOf_const 20 7 0x80 0x8000000000000000 (by omega) (fun j hj => by interval_cases j <;> rfl)
      (fun p hp => by interval_cases p <;> rfl) k hk
  have hidx : IdxOk 8 8 4 (setEpi32 [7 * 4, 6 * 4, 5 * 4, 4 * 4, 3 * 4, 2 * 4, 1 * 4, 0 * 4]) := index_ok .x8 4
  obtain ⟨o1, f1, u1⟩ := scatter_lane (A := rounds12 (ops 8) unr A3) (by omega) hidx ho 0 (by omega) (OUpd.refl _ _ _ _ _)
  obtain ⟨o2, f2, u2⟩ := scatter_lane (by omega) hidx ho 1 (by omega) u1
  obtain ⟨o3, f3, u3⟩ := scatter_lane (by omega) hidx ho 2 (by omega) u2
  obtain ⟨o4, f4, u4⟩ := scatter_lane (by omega) hidx ho 3 (by omega) u3
  have hout : finish128 (rounds12 (ops 8) unr) A (input.drop (48 * (21 * 8))) out = some o4 := by
    unfold finish128
    simp only [Option.bind_eq_bind]
    rw [e1, Option.bind_some]
    refine (congrArg (fun x => Option.bind x _) f1).trans ?_
    rw [Option.bind_some]
    refine (congrArg (fun x => Option.bind x _) f2).trans ?_
    rw [Option.bind_some]
    refine (congrArg (fun x => Option.bind x _) f3).trans ?_
    rw [Option.bind_some]
    exact f4
  have hall : kt128ProcessLeaves unr input out = some o4 := by
    unfold kt128ProcessLeaves
    simp only [Option.bind_eq_bind]
    rw [e, Option.bind_some]
    exact hout
  rw [hall, output_eq (cv := 4) (by omega) (by omega) ho u4, PlSnP.leafCVs_eq_range]
  refine congrArg some (congrArg (fun x => x ++ _) ?_)
  rw [List.flatMap_def, List.flatMap_def]
  refine congrArg _ (List.map_congr_left fun k hk => ?_)
  have hk := List.mem_range.mp hk
  rw [leaf_eq (by omega) (by omega) (by omega) _ (by rw [List.length_drop]; omega), rounds12_state unr _ k hk, s3 k hk, s2 k hk, a1.state k hk,
    hA k hk, stateOf_init k hk, List.drop_drop, List.drop_drop, Nat.add_comm (k * 8192)]

theorem kt256_ok (unr : Unrolling) (input out : Bytes) (hi : 8 * 8192 ≤ input.length) (ho : 8 * 64 ≤ out.length) :
    kt256ProcessLeaves unr input out = some (PlSnP.leafCVs P12 136 8192 0x0B 64 8 input ++ out.drop (8 * 64)) := by
  obtain ⟨A, e, hA⟩ := leafLoop_ok (lc := 17) (F := P12.permute) (fun data A hd => xorData17_ok hd A) (rounds12_state unr) 60 0 8192 input
    initializeState (fun t ht => by omega) (by omega) (by omega)
  obtain ⟨A1, e1, a1⟩ := xorData4_ok (data := input.drop (60 * (17 * 8))) (by rw [List.length_drop]; omega) A
  let A2 : V (Vec 8) := { A1 with bu := Simd.xor A1.bu (set1 0x0B) }
  let A3 : V (Vec 8) := { A2 with me := Simd.xor A2.me (set1 0x8000000000000000) }
  have s2 : ∀ k < 8, stateOf A2 k = Bytes.xorAt (stateOf A1 k) (8 * 4 + 0) [0x0B] := fun k hk =>
    stateOf_const 4 0 0x0B 0x0B (by omega) (fun j hj => by interval_cases j <;> rfl) (fun p hp => by interval_cases p <;> rfl) k hk
  have s3 : ∀ k < 8, stateOf A3 k = Bytes.xorAt (stateOf A2 k) (8 * 16 + 7) [0x80] := fun k hk =>
    stateOf_const 16 7 0x80 0x8000000000000000 (by omega) (fun j hj => by interval_cases j <;> rfl)
      (fun p hp => by interval_cases p <;> rfl) k hk
  have hidx : IdxOk 8 8 8 (setEpi32 [7 * 8, 6 * 8, 5 * 8, 4 * 8, 3 * 8, 2 * 8, 1 * 8, 0 * 8]) := index_ok .x8 8
  obtain ⟨o1, f1, u1⟩ := scatter_lane (A := rounds12 (ops 8) unr A3) (by omega) hidx ho 0 (by omega) (OUpd.refl _ _ _ _ _)
  obtain ⟨o2, f2, u2⟩ := scatter_lane (by omega) hidx ho 1 (by omega) u1
  obtain ⟨o3, f3, u3⟩ := scatter_lane (by omega) hidx ho 2 (by omega) u2
  obtain ⟨o4, f4, u4⟩ := scatter_lane (by omega) hidx ho 3 (by omega) u3
  obtain ⟨o5, f5, u5⟩ := scatter_lane (by omega) hidx ho 4 (by omega) u4
  obtain ⟨o6, f6, u6⟩ := scatter_lane (by omega) hidx ho 5 (by omega) u5
  obtain ⟨o7, f7, u7⟩ := scatter_lane (by omega) hidx ho 6 (by omega) u6
  obtain ⟨o8, f8, u8⟩ := scatter_lane (by omega) hidx ho 7 (by omega) u7
  have hout : finish256 (rounds12 (ops 8) unr) A (input.drop (60 * (17 * 8))) out = some o8 := by
    unfold finish256
    simp only [Option.bind_eq_bind]
    rw [e1, Option.bind_some]
    refine (congrArg (fun x => Option.bind x _) f1).trans ?_
    rw [Option.bind_some]
    refine (congrArg (fun x => Option.bind x _) f2).trans ?_
    rw [Option.bind_some]
    refine (congrArg (fun x => Option.bind x _) f3).trans ?_
    rw [Option.bind_some]
    refine (congrArg (fun x => Option.bind x _) f4).trans ?_
    rw [Option.bind_some]
    refine (congrArg (fun x => Option.bind x _) f5).trans ?_
    rw [Option.bind_some]
    refine (congrArg (fun x => Option.bind x _) f6).trans ?_
    rw [Option.bind_some]
    refine (congrArg (fun x => Option.bind x _) f7).trans ?_
    rw [Option.bind_some]
    exact f8
  have hall : kt256ProcessLeaves unr input out = some o8 := by
    unfold kt256ProcessLeaves
    simp only [Option.bind_eq_bind]
    rw [e, Option.bind_some]
    exact hout
  rw [hall, output_eq (cv := 8) (by omega) (by omega) ho u8, PlSnP.leafCVs_eq_range]
  refine congrArg some (congrArg (fun x => x ++ _) ?_)
  rw [List.flatMap_def, List.flatMap_def]
  refine congrArg _ (List.map_congr_left fun k hk => ?_)
  have hk := List.mem_range.mp hk
  rw [leaf_eq (by omega) (by omega) (by omega) _ (by rw [List.length_drop]; omega), rounds12_state unr _ k hk, s3 k hk, s2 k hk, a1.state k hk,
    hA k hk, stateOf_init k hk, List.drop_drop, List.drop_drop, Nat.add_comm (k * 8192)]

end Avx512
