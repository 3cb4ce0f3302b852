import Verif.Model.Times4Kravatte
import Verif.Proofs.KravatteWords
import Verif.Proofs.Farfalle
import Mathlib.Data.List.GetD

/-!
The functions for Kravatte of the AVX2 implementation, against the serial computation.
-/

namespace Times4

open Simd
open Kravatte
open KeccakP1600 (Lane bytesOfLanes)
open KeccakP1600.Opt64 (Unrolling)

/-- `do ... while`, with an invariant. -/
theorem doWhile_inv {σ : Type} {sizeT : Nat} {step : Nat → σ → Option σ} (I : Nat → σ → Prop) (fuel : Nat) :
    ∀ (n done : Nat) (s : σ), 0 < n → n < sizeT → n ≤ fuel →
      (∀ i s, done ≤ i → i < done + n → I i s → ∃ s', step i s = some s' ∧ I (i + 1) s') → I done s →
      ∃ s', doWhile sizeT step fuel n done s = some (s', done + n) ∧ I (done + n) s' := by
  induction fuel with
  | zero => intro n done s h1 h2 h3; omega
  | succ fuel ih =>
    intro n done s h0 hn hf hstep hI
    obtain ⟨s1, e1, h1⟩ := hstep done s (by omega) (by omega) hI
    have hm : (n + sizeT - 1) % sizeT = n - 1 := by
      rw [show n + sizeT - 1 = n - 1 + sizeT by omega, Nat.add_mod_right, Nat.mod_eq_of_lt (by omega)]
    rw [doWhile]
    simp only [Option.bind_eq_bind]
    rw [e1, Option.bind_some, hm]
    by_cases h : n - 1 = 0
    · have h1' : n = 1 := by omega
      subst h1'
      rw [if_neg (by simp)]
      exact ⟨s1, rfl, h1⟩
    · rw [if_pos h]
      obtain ⟨s2, e2, h2⟩ := ih (n - 1) (done + 1) s1 (by omega) (by omega) (by omega)
        (fun i s h3 h4 h5 => hstep i s (by omega) (by omega) h5) h1
      refine ⟨s2, ?_, ?_⟩
      · rw [e2]; congr 2; omega
      · rw [show done + n = done + 1 + (n - 1) by omega]; exact h2

/-! ### Loads -/

theorem loadWord_at {b : Bytes} {q : Nat} (i : Nat) (e : q = 8 * i) (h : 8 * i + 8 ≤ b.length) : loadWord b q = some (wd b i) := by
  rw [e, loadWord_ok _ _ h]

theorem loadVec_at {b : Bytes} {q : Nat} (i : Nat) (e : q = 8 * i) (h : 8 * i + 32 ≤ b.length) :
    loadVec 4 b q = some fun l => wd b (i + l.val) := by
  rw [e, loadVec_ok _ _ _ (by omega)]

theorem gather4_ok {inp : Bytes} (h : 800 ≤ inp.length) (i : Nat) (hi : i < 25) :
    gather4 inp (8 * i) = some fun l => wd inp (l.val * 25 + i) := by
  unfold gather4
  simp only [Option.bind_eq_bind]
  rw [loadWord_at i (by omega) (by omega), Option.bind_some, loadWord_at (1 * 25 + i) (by omega) (by omega), Option.bind_some,
    loadWord_at (2 * 25 + i) (by omega) (by omega), Option.bind_some, loadWord_at (3 * 25 + i) (by omega) (by omega), Option.bind_some]
  refine congrArg some (funext fun l => ?_)
  fin_cases l
  · show wd inp i = wd inp (0 * 25 + i)
    rw [Nat.zero_mul, Nat.zero_add]
  · rfl
  · rfl
  · rfl

theorem fetch4_ok (a : Arch) {inp : Bytes} (h : 800 ≤ inp.length) (i : Nat) (hi : i + 4 ≤ 25) :
    ∃ l, fetch4 a inp i = some l ∧ ∀ j k : Fin 4, l.get j k = wd inp (k.val * 25 + (i + j.val)) := by
  unfold fetch4
  cases a.gather
  · simp only [Bool.false_eq_true, if_false, Option.bind_eq_bind]
    rw [loadVec_at (0 * 25 + i) (by omega) (by omega), Option.bind_some, loadVec_at (1 * 25 + i) (by omega) (by omega), Option.bind_some,
      loadVec_at (2 * 25 + i) (by omega) (by omega), Option.bind_some, loadVec_at (3 * 25 + i) (by omega) (by omega), Option.bind_some]
    refine ⟨_, rfl, fun j k => ?_⟩
    rw [intleave_get, ← Nat.add_assoc]
    fin_cases k <;> rfl
  · simp only [if_true, Option.bind_eq_bind]
    rw [gather4_ok h _ (by omega), Option.bind_some, gather4_ok h _ (by omega), Option.bind_some, gather4_ok h _ (by omega), Option.bind_some,
      gather4_ok h _ (by omega), Option.bind_some]
    refine ⟨_, rfl, fun j k => ?_⟩
    fin_cases j <;> rfl

theorem addKey4_ok {key : Bytes} (h : key.length = 200) (i : Nat) (hi : i + 4 ≤ 25) (l : Four) :
    ∃ l', addKey4 key i l = some l' ∧ ∀ j k : Fin 4, l'.get j k = l.get j k ^^^ wd key (i + j.val) := by
  unfold addKey4
  simp only [Option.bind_eq_bind]
  rw [loadWord_ok _ _ (by omega), Option.bind_some, loadWord_ok _ _ (by omega), Option.bind_some, loadWord_ok _ _ (by omega), Option.bind_some,
    loadWord_ok _ _ (by omega), Option.bind_some]
  refine ⟨_, rfl, fun j k => ?_⟩
  fin_cases j <;> rfl

theorem addOverWr4_ok (a : Arch) {key inp : Bytes} (hk : key.length = 200) (h : 800 ≤ inp.length) (i : Nat) (hi : i + 4 ≤ 25) :
    ∃ l, addOverWr4 a key inp i = some l ∧ ∀ j k : Fin 4, l.get j k = wd inp (k.val * 25 + (i + j.val)) ^^^ wd key (i + j.val) := by
  obtain ⟨l, e, hl⟩ := fetch4_ok a h i hi
  obtain ⟨l', e', hl'⟩ := addKey4_ok hk i hi l
  refine ⟨l', ?_, fun j k => by rw [hl', hl]⟩
  unfold addOverWr4
  simp only [Option.bind_eq_bind]
  rw [e, Option.bind_some, e']

theorem loadXOReq_ok {inp : Bytes} (h : 800 ≤ inp.length) (v : Vec 4) (i : Nat) (hi : i < 25) :
    ∃ w, loadXOReq v inp i = some w ∧ ∀ l : Fin 4, w l = v l ^^^ wd inp (l.val * 25 + i) := by
  unfold loadXOReq
  simp only [Option.bind_eq_bind]
  rw [loadWord_ok _ _ (by omega), Option.bind_some, loadWord_ok _ _ (by omega), Option.bind_some, loadWord_ok _ _ (by omega), Option.bind_some,
    loadWord_ok _ _ (by omega), Option.bind_some]
  refine ⟨_, rfl, fun l => ?_⟩
  fin_cases l <;> rfl

/-! ### Compression -/

theorem halves (x : Lane) : x.extractLsb' 32 32 ++ x.extractLsb' 0 32 = x := by
  apply BitVec.eq_of_getLsbD_eq
  intro i hi
  rw [BitVec.getLsbD_append]
  by_cases h : i < 32
  · simp [h]
  · rw [if_neg h, BitVec.getLsbD_extractLsb', show 32 + (i - 32) = i by omega]
    simp only [show i - 32 < 32 by omega, decide_true, Bool.true_and]

/-- The rolled words in the four lanes. -/
theorem kravatteRollc_ok (f : Nat → Lane) (hf : ∀ n, f (n + 5) = rol64 (f n) 7 ^^^ f (n + 1) ^^^ (f (n + 1) >>> 3)) (r : Roll)
    (hlo : ∀ l : Fin 4, r.lo l = f l.val) (hhi : ∀ l : Fin 4, r.hi l = f (l.val + 1)) (l : Fin 4) :
    (kravatteRollc r).1.1 l = f (l.val + 0) ∧ (kravatteRollc r).1.2.1 l = f (l.val + 1) ∧ (kravatteRollc r).1.2.2.1 l = f (l.val + 2) ∧
    (kravatteRollc r).1.2.2.2.1 l = f (l.val + 3) ∧ (kravatteRollc r).1.2.2.2.2 l = f (l.val + 4) ∧
    (kravatteRollc r).2.lo l = f (l.val + 4) ∧ (kravatteRollc r).2.hi l = f (l.val + 5) := by
  have hn : ∀ l : Fin 4, (kravatteRollc r).2.hi l = f (l.val + 5) := by
    intro l
    rw [hf, ← hlo l, ← hhi l]; rfl
  have b0 : ∀ (a b : Vec 4) (l : Fin 4), blendEpi32 a b 0xC0 l = if l.val = 3 then b l else a l := by
    intro a b l
    fin_cases l <;> exact halves _
  have b1 : ∀ (a b : Vec 4) (l : Fin 4), blendEpi32 a b 0xFC l = if l.val = 0 then a l else b l := by
    intro a b l
    fin_cases l <;> exact halves _
  have hsu : ∀ l : Fin 4, (kravatteRollc r).1.2.2.2.2 l = f (l.val + 4) := by
    intro l
    refine (b1 (permute4x64 r.hi 0xFF) (permute4x64 (kravatteRollc r).2.hi 0x90) l).trans ?_
    fin_cases l
    · exact hhi 3
    · exact hn 0
    · exact hn 1
    · exact hn 2
  refine ⟨hlo l, hhi l, ?_, ?_, hsu l, hsu l, hn l⟩
  · refine (b0 (permute4x64 r.hi 0x39) (permute4x64 (kravatteRollc r).2.hi 0x39) l).trans ?_
    fin_cases l
    · exact hhi 1
    · exact hhi 2
    · exact hhi 3
    · exact hn 0
  · fin_cases l
    · exact hhi 2
    · exact hhi 3
    · exact hn 0
    · exact hn 1

/-- The registers hold the words of the mask rolled `t` times. -/
structure RollAt (k : Bytes) (t : Nat) (r : Roll) : Prop where
  lo : ∀ l : Fin 4, r.lo l = cseq k (t + l.val)
  hi : ∀ l : Fin 4, r.hi l = cseq k (t + l.val + 1)

theorem compressLoad_ok (a : Arch) {k in64 : Bytes} (hk : k.length = 200) (h : 800 ≤ in64.length) (t : Nat) (r : Roll) (hr : RollAt k t r) :
    ∃ A r', compressLoad a k in64 r = some (A, r') ∧ RollAt k (t + 4) r' ∧
      ∀ p < 25, ∀ l : Fin 4, A.get p l = wd in64 (l.val * 25 + p) ^^^ wd (kAt k (t + l.val)) p := by
  obtain ⟨f0, e0, h0⟩ := addOverWr4_ok a hk h 0 (by omega)
  obtain ⟨f1, e1, h1⟩ := addOverWr4_ok a hk h 4 (by omega)
  obtain ⟨f2, e2, h2⟩ := addOverWr4_ok a hk h 8 (by omega)
  obtain ⟨f3, e3, h3⟩ := addOverWr4_ok a hk h 12 (by omega)
  obtain ⟨f4, e4, h4⟩ := addOverWr4_ok a hk h 16 (by omega)
  have hroll := kravatteRollc_ok (fun n => cseq k (t + n)) (fun n => cseq_step hk (t + n)) r hr.lo hr.hi
  obtain ⟨s0, g0, i0⟩ := loadXOReq_ok h (kravatteRollc r).1.1 20 (by omega)
  obtain ⟨s1, g1, i1⟩ := loadXOReq_ok h (kravatteRollc r).1.2.1 21 (by omega)
  obtain ⟨s2, g2, i2⟩ := loadXOReq_ok h (kravatteRollc r).1.2.2.1 22 (by omega)
  obtain ⟨s3, g3, i3⟩ := loadXOReq_ok h (kravatteRollc r).1.2.2.2.1 23 (by omega)
  obtain ⟨s4, g4, i4⟩ := loadXOReq_ok h (kravatteRollc r).1.2.2.2.2 24 (by omega)
  refine ⟨⟨f0.l0, f0.l1, f0.l2, f0.l3, f1.l0, f1.l1, f1.l2, f1.l3, f2.l0, f2.l1, f2.l2, f2.l3, f3.l0, f3.l1, f3.l2, f3.l3,
    f4.l0, f4.l1, f4.l2, f4.l3, s0, s1, s2, s3, s4⟩, (kravatteRollc r).2, ?_, ⟨fun l => ?_, fun l => ?_⟩, ?_⟩
  rotate_left
  · rw [(hroll l).2.2.2.2.2.1, Nat.add_comm l.val, Nat.add_assoc]
  · rw [(hroll l).2.2.2.2.2.2]; congr 1; omega
  rotate_left
  · unfold compressLoad
    simp only [Option.bind_eq_bind]
    rw [e0, Option.bind_some, e1, Option.bind_some, e2, Option.bind_some, e3, Option.bind_some, e4, Option.bind_some, g0, Option.bind_some,
      g1, Option.bind_some, g2, Option.bind_some, g3, Option.bind_some, g4, Option.bind_some]
  · intro p hp l
    have hhi : ∀ j < 5, wd (kAt k (t + l.val)) (20 + j) = cseq k (t + (l.val + j)) := fun j hj => by
      rw [kAt_hi hk _ _ hj, Nat.add_assoc]
    have q0 : s0 l = wd in64 (l.val * 25 + 20) ^^^ wd (kAt k (t + l.val)) (20 + 0) := by
      rw [i0, hhi 0 (by omega), (hroll l).1, BitVec.xor_comm]
    have q1 : s1 l = wd in64 (l.val * 25 + 21) ^^^ wd (kAt k (t + l.val)) (20 + 1) := by
      rw [i1, hhi 1 (by omega), (hroll l).2.1, BitVec.xor_comm]
    have q2 : s2 l = wd in64 (l.val * 25 + 22) ^^^ wd (kAt k (t + l.val)) (20 + 2) := by
      rw [i2, hhi 2 (by omega), (hroll l).2.2.1, BitVec.xor_comm]
    have q3 : s3 l = wd in64 (l.val * 25 + 23) ^^^ wd (kAt k (t + l.val)) (20 + 3) := by
      rw [i3, hhi 3 (by omega), (hroll l).2.2.2.1, BitVec.xor_comm]
    have q4 : s4 l = wd in64 (l.val * 25 + 24) ^^^ wd (kAt k (t + l.val)) (20 + 4) := by
      rw [i4, hhi 4 (by omega), (hroll l).2.2.2.2.1, BitVec.xor_comm]
    by_cases hp2 : p < 20
    · rw [kAt_lo hk _ hp2]
      interval_cases p
      exacts [h0 0 l, h0 1 l, h0 2 l, h0 3 l, h1 0 l, h1 1 l, h1 2 l, h1 3 l, h2 0 l, h2 1 l, h2 2 l, h2 3 l, h3 0 l, h3 1 l, h3 2 l, h3 3 l,
        h4 0 l, h4 1 l, h4 2 l, h4 3 l]
    · obtain ⟨j, rfl⟩ : ∃ j, p = 20 + j := ⟨p - 20, by omega⟩
      have hj : j < 5 := by omega
      clear hp hp2
      interval_cases j
      exacts [q0, q1, q2, q3, q4]

/-- The words `a ≤ p < b` of an array become `x p`. -/
structure WUpd (m m' : Bytes) (a b : Nat) (x : Nat → Lane) : Prop where
  len : m'.length = m.length
  word : ∀ p, wd m' p = if a ≤ p ∧ p < b then x p else wd m p

theorem WUpd.of_stored {m m' : Bytes} {i n : Nat} {v : Nat → Lane} {x : Nat → Lane} (h : Stored m m' i n v)
    (hv : ∀ j < n, v j = x (i + j)) : WUpd m m' i (i + n) x := by
  refine ⟨h.len, fun p => ?_⟩
  rw [h.wd]
  split
  · rename_i hc; rw [hv _ (by omega)]; congr 1; omega
  · rfl

theorem WUpd.trans {m m1 m2 : Bytes} {a b c : Nat} {x : Nat → Lane} (h1 : WUpd m m1 a b x) (h2 : WUpd m1 m2 b c x) (hab : a ≤ b)
    (hbc : b ≤ c) : WUpd m m2 a c x := by
  refine ⟨h2.len.trans h1.len, fun p => ?_⟩
  rw [h2.word, h1.word]
  by_cases hc : b ≤ p ∧ p < c
  · rw [if_pos hc, if_pos (by omega)]
  · rw [if_neg hc]
    by_cases hc2 : a ≤ p ∧ p < b
    · rw [if_pos hc2, if_pos (by omega)]
    · rw [if_neg hc2, if_neg (by omega)]

theorem extract64_ok {a : Arch} (ha : a.i386 = false) (v : Vec 4) (l : Fin 4) : extract64 a v l.val = v l := by
  unfold extract64
  rw [ha, if_neg (by simp), extractEpi64, Vec.at, dif_pos l.isLt]

/-- The sum of the four lanes of register `p`. -/
def sum4 (A : V (Vec 4)) (p : Nat) : Lane := A.get p 0 ^^^ A.get p 1 ^^^ A.get p 2 ^^^ A.get p 3

theorem extrAccu4_ok {x m : Bytes} (A : V (Vec 4)) (i : Nat) (hi : i + 4 ≤ 25) (l : Four) (hl : ∀ j : Fin 4, l.get j = A.get (i + j.val))
    (hx : x.length = 200) (h : WUpd x m 0 i (fun p => wd x p ^^^ sum4 A p)) :
    ∃ m', extrAccu4 l i m = some m' ∧ WUpd x m' 0 (i + 4) (fun p => wd x p ^^^ sum4 A p) := by
  have hm : m.length = 200 := h.len.trans hx
  unfold extrAccu4
  simp only [Option.bind_eq_bind]
  rw [loadVec_ok _ _ _ (by omega), Option.bind_some]
  obtain ⟨m', e, hs⟩ := storeVec_ok m i (xor (xor (xor (unintleave l).l0 (unintleave l).l1) (xor (unintleave l).l2 (unintleave l).l3))
    (fun l : Fin 4 => wd m (i + l.val))) (by omega)
  refine ⟨m', e, h.trans (.of_stored hs fun j hj => ?_) (by omega) (by omega)⟩
  rw [Vec.at, dif_pos hj]
  have e0 : ∀ k : Fin 4, (unintleave l).get k ⟨j, hj⟩ = A.get (i + j) k := fun k => by rw [unintleave_get, hl]
  show ((unintleave l).get 0 ⟨j, hj⟩ ^^^ (unintleave l).get 1 ⟨j, hj⟩ ^^^ ((unintleave l).get 2 ⟨j, hj⟩ ^^^ (unintleave l).get 3 ⟨j, hj⟩)) ^^^
    wd m (i + j) = _
  rw [e0, e0, e0, e0, h.word, if_neg (by omega), sum4, BitVec.xor_comm _ (wd x (i + j)), BitVec.xor_assoc (A.get (i + j) 0 ^^^ _)]

theorem extrAccu_ok {a : Arch} (ha : a.i386 = false) {x m : Bytes} (A : V (Vec 4)) (i : Nat) (hi : i < 25)
    (hx : x.length = 200) (h : WUpd x m 0 i (fun p => wd x p ^^^ sum4 A p)) :
    ∃ m', extrAccu a (A.get i) i m = some m' ∧ WUpd x m' 0 (i + 1) (fun p => wd x p ^^^ sum4 A p) := by
  have hm : m.length = 200 := h.len.trans hx
  unfold extrAccu
  simp only [Option.bind_eq_bind]
  rw [loadWord_ok _ _ (by omega), Option.bind_some]
  obtain ⟨m', e, hs⟩ := storeWord_ok m i (wd m i ^^^ (extract64 a (A.get i) 0 ^^^ extract64 a (A.get i) 1 ^^^ extract64 a (A.get i) 2 ^^^
    extract64 a (A.get i) 3)) (by omega)
  refine ⟨m', e, h.trans (.of_stored hs fun j hj => ?_) (by omega) (by omega)⟩
  obtain rfl : j = 0 := by omega
  rw [h.word, if_neg (by omega)]
  have e0 := extract64_ok ha (A.get i)
  exact congrArg (wd x i ^^^ ·) (by
    have h0 := e0 0; have h1 := e0 1; have h2 := e0 2; have h3 := e0 3
    exact (congrArg₂ _ (congrArg₂ _ (congrArg₂ _ h0 h1) h2) h3))

theorem compressStore_ok {a : Arch} (ha : a.i386 = false) (A : V (Vec 4)) {x : Bytes} (hx : x.length = 200) :
    ∃ x', compressStore a A x = some x' ∧ x'.length = 200 ∧ ∀ p < 25, wd x' p = wd x p ^^^ sum4 A p := by
  have u0 : WUpd x x 0 0 (fun p => wd x p ^^^ sum4 A p) := ⟨rfl, fun p => by rw [if_neg (by omega)]⟩
  obtain ⟨m1, e1, u1⟩ := extrAccu4_ok A 0 (by omega) ⟨A.ba, A.be, A.bi, A.bo⟩ (fun j => by fin_cases j <;> rfl) hx u0
  obtain ⟨m2, e2, u2⟩ := extrAccu4_ok A 4 (by omega) ⟨A.bu, A.ga, A.ge, A.gi⟩ (fun j => by fin_cases j <;> rfl) hx u1
  obtain ⟨m3, e3, u3⟩ := extrAccu4_ok A 8 (by omega) ⟨A.go, A.gu, A.ka, A.ke⟩ (fun j => by fin_cases j <;> rfl) hx u2
  obtain ⟨m4, e4, u4⟩ := extrAccu4_ok A 12 (by omega) ⟨A.ki, A.ko, A.ku, A.ma⟩ (fun j => by fin_cases j <;> rfl) hx u3
  obtain ⟨m5, e5, u5⟩ := extrAccu4_ok A 16 (by omega) ⟨A.me, A.mi, A.mo, A.mu⟩ (fun j => by fin_cases j <;> rfl) hx u4
  obtain ⟨m6, e6, u6⟩ := extrAccu4_ok A 20 (by omega) ⟨A.sa, A.se, A.si, A.so⟩ (fun j => by fin_cases j <;> rfl) hx u5
  obtain ⟨m7, e7, u7⟩ := extrAccu_ok ha A 24 (by omega) hx u6
  refine ⟨m7, ?_, u7.len.trans hx, fun p hp => by rw [u7.word, if_pos (by omega)]⟩
  unfold compressStore
  simp only [Option.bind_eq_bind]
  rw [e1, Option.bind_some, e2, Option.bind_some, e3, Option.bind_some, e4, Option.bind_some, e5, Option.bind_some, e6, Option.bind_some]
  exact e7

/-- The registers as bytes: state `l` is a string given by its words. -/
theorem stateOf_words {s : St (Vec 4)} {l : Fin 4} {b : Bytes} (hb : b.length = 200) (h : ∀ p < 25, s.A.get p l = wd b p) :
    stateOf s l.val = b := by
  have hl : (stateOf s l.val).length = 200 := KeccakP1600.length_bytesOfLanes _
  refine words_ext hl hb fun p hp => ?_
  rw [stateOf, wd_bytesOfLanes _ hp, lanesOf_get, Vec.at, dif_pos l.isLt]
  exact h p hp

theorem wd_stateOf (s : St (Vec 4)) (l : Fin 4) {p : Nat} (hp : p < 25) : wd (stateOf s l.val) p = s.A.get p l := by
  rw [stateOf, wd_bytesOfLanes _ hp, lanesOf_get, Vec.at, dif_pos l.isLt]

/-- Six rounds. -/
abbrev F6 : Bytes → Bytes := KeccakP1600.Ref.permuteNrounds 6

theorem length_F6 (s : Bytes) : (F6 s).length = 200 := KeccakP1600.length_bytesOfLanes _

theorem compressBody_ok {a : Arch} (ha : a.i386 = false) (unr : Unrolling) {k in64 : Bytes} (hk : k.length = 200) (h : 800 ≤ in64.length)
    (t : Nat) (s : CSt) (hr : RollAt k t s.r) (hx : s.x.length = 200) :
    ∃ s', compressBody a unr k in64 s = some s' ∧ RollAt k (t + 4) s'.r ∧
      s'.x = Bytes.xor (Bytes.xor (Bytes.xor (Bytes.xor s.x (F6 (Bytes.xor (kAt k t) (in64.take 200))))
        (F6 (Bytes.xor (kAt k (t + 1)) ((in64.drop 200).take 200)))) (F6 (Bytes.xor (kAt k (t + 2)) ((in64.drop 400).take 200))))
        (F6 (Bytes.xor (kAt k (t + 3)) ((in64.drop 600).take 200))) := by
  obtain ⟨A, r', e1, hr', hA⟩ := compressLoad_ok a hk h t s.r hr
  obtain ⟨x', e2, hl, hx'⟩ := compressStore_ok ha (rounds6 rounds unr ⟨A, s.J.E, s.J.c⟩).A hx
  have hst : ∀ l : Fin 4, stateOf ⟨A, s.J.E, s.J.c⟩ l.val = Bytes.xor (kAt k (t + l.val)) ((in64.drop (200 * l.val)).take 200) := by
    intro l
    have h1 := length_kAt hk (t + l.val)
    have h2 : ((in64.drop (200 * l.val)).take 200).length = 200 := by rw [List.length_take, List.length_drop]; omega
    refine stateOf_words (by rw [Bytes.length_xor, h1, h2]; rfl) fun p hp => ?_
    rw [wd_xor h1 h2 hp, wd_take (by omega), show 200 * l.val = 8 * (l.val * 25) by omega, wd_drop, BitVec.xor_comm]
    exact hA p hp l
  have hrs : ∀ l : Fin 4, stateOf (rounds6 rounds unr ⟨A, s.J.E, s.J.c⟩) l.val =
      F6 (Bytes.xor (kAt k (t + l.val)) ((in64.drop (200 * l.val)).take 200)) := fun l => by
    rw [rounds_stateOf (n := 6) (fun l s => rounds6_rep (rounds_sound l) unr s) _ _ l.isLt, hst]
  refine ⟨⟨r', x', ⟨(rounds6 rounds unr ⟨A, s.J.E, s.J.c⟩).E, (rounds6 rounds unr ⟨A, s.J.E, s.J.c⟩).c⟩⟩, ?_, hr', ?_⟩
  · unfold compressBody
    simp only [Option.bind_eq_bind]
    rw [e1, Option.bind_some, e2, Option.bind_some]
  · have l1 : (Bytes.xor s.x (F6 (Bytes.xor (kAt k t) (in64.take 200)))).length = 200 := by
      rw [Bytes.length_xor, hx, length_F6]; rfl
    have l2 := (Bytes.length_xor (Bytes.xor s.x (F6 (Bytes.xor (kAt k t) (in64.take 200))))
      (F6 (Bytes.xor (kAt k (t + 1)) ((in64.drop 200).take 200)))).trans (by rw [l1, length_F6]; rfl : _ = 200)
    have l3 := (Bytes.length_xor _ (F6 (Bytes.xor (kAt k (t + 2)) ((in64.drop 400).take 200)))).trans (by rw [l2, length_F6]; rfl : _ = 200)
    have l4 := (Bytes.length_xor _ (F6 (Bytes.xor (kAt k (t + 3)) ((in64.drop 600).take 200)))).trans (by rw [l3, length_F6]; rfl : _ = 200)
    refine words_ext hl l4 fun p hp => ?_
    have w : ∀ l : Fin 4, (rounds6 rounds unr ⟨A, s.J.E, s.J.c⟩).A.get p l =
        wd (F6 (Bytes.xor (kAt k (t + l.val)) ((in64.drop (200 * l.val)).take 200))) p := fun l => by rw [← hrs, wd_stateOf _ _ hp]
    rw [wd_xor l3 (length_F6 _) hp, wd_xor l2 (length_F6 _) hp, wd_xor l1 (length_F6 _) hp, wd_xor hx (length_F6 _) hp, hx' p hp, sum4, w, w, w, w]
    simp only [← BitVec.xor_assoc]
    rfl

section

variable {C : Farfalle.Cfg} (hw : C.width = 200) (hp : C.permute = F6) (hrc : C.rollc = rollc)

include hw hp hrc in
theorem eat_four (k x d : Bytes) (t : Nat) : (Farfalle.eat C (t + 4) (k, x) d).2 =
    Bytes.xor (Bytes.xor (Bytes.xor (Bytes.xor (Farfalle.eat C t (k, x) d).2 (F6 (Bytes.xor (kAt k t) ((d.drop (200 * t)).take 200))))
      (F6 (Bytes.xor (kAt k (t + 1)) ((d.drop (200 * t + 200)).take 200)))) (F6 (Bytes.xor (kAt k (t + 2)) ((d.drop (200 * t + 400)).take 200))))
      (F6 (Bytes.xor (kAt k (t + 3)) ((d.drop (200 * t + 600)).take 200))) := by
  have hr : Farfalle.rc C = rc1 := by funext k; rw [Farfalle.rc, hrc]; rfl
  have h1 := Farfalle.eat_fst (C := C) t (k, x) d
  rw [hr] at h1
  rw [Farfalle.eat_add]
  generalize Farfalle.eat C t (k, x) d = st at h1
  obtain ⟨k', x'⟩ := st
  obtain rfl : k' = kAt k t := h1
  simp only [Farfalle.eat, hr, hp, hw, List.drop_drop]
  simp only [Nat.mul_comm t 200]
  rfl

include hw hp hrc in
/-- `KeccakP1600times4_KravatteCompress` absorbs the blocks one after the other. -/
theorem kravatteCompress_ok {a : Arch} (ha : a.i386 = false) (unr : Unrolling) (J : Junk) (fuel : Nat) (x k input : Bytes) (len : Nat)
    (hk : k.length = 200) (hx : x.length = 200) (h8 : 800 ≤ len) (hl : len ≤ input.length) (h64 : len < 2 ^ 64) (hf : len ≤ fuel) :
    kravatteCompress a unr J fuel x k input len = some ((Farfalle.eat C (len / 800 * 4) (k, x) input).1,
      (Farfalle.eat C (len / 800 * 4) (k, x) input).2, len / 800 * 800) := by
  have hlx : ∀ t, (Farfalle.eat C (4 * t) (k, x) input).2.length = 200 := by
    intro t
    induction t with
    | zero => exact hx
    | succ t ih =>
      rw [Nat.mul_succ, eat_four hw hp hrc]
      have hF : ∀ (b s : Bytes), b.length = 200 → (Bytes.xor b (F6 s)).length = 200 := fun b s hb => by
        rw [Bytes.length_xor, hb, length_F6]; rfl
      exact hF _ _ (hF _ _ (hF _ _ (hF _ _ ih)))
  obtain ⟨s, e, hs1, hs2⟩ := doWhile_inv (step := fun i s => compressBody a unr k (input.drop (8 * (i * (4 * 25)))) s)
    (sizeT := a.sizeT) (fun i s => RollAt k (4 * i) s.r ∧ s.x = (Farfalle.eat C (4 * i) (k, x) input).2) fuel (len / 800) 0
    ⟨⟨fun l => wd k (20 + l.val), fun l => wd k (21 + l.val)⟩, x, J⟩ (by omega)
    (by rw [Arch.sizeT, ha, if_neg (by simp)]; omega) (by omega)
    (fun i s _ hi hI => by
      obtain ⟨h1, h2⟩ := hI
      obtain ⟨s', g1, g2, g3⟩ := compressBody_ok ha unr (in64 := input.drop (8 * (i * (4 * 25)))) hk (by rw [List.length_drop]; omega) (4 * i)
        s h1 (by rw [h2]; exact hlx i)
      refine ⟨s', g1, g2, ?_⟩
      rw [g3, h2, show 4 * (i + 1) = 4 * i + 4 by omega, eat_four hw hp hrc, List.drop_drop, List.drop_drop, List.drop_drop,
        show 8 * (i * (4 * 25)) = 200 * (4 * i) by omega])
    ⟨⟨fun l => kAt_hi hk 0 l.val (by omega), fun l => by
      show wd k (21 + l.val) = _
      rw [show 21 + l.val = 20 + (l.val + 1) by omega]
      exact kAt_hi hk 0 (l.val + 1) (by omega)⟩, rfl⟩
  obtain ⟨k1, e1, u1⟩ := storeVec_ok k 20 s.r.lo (by omega)
  obtain ⟨k2, e2, u2⟩ := storeWord_ok k1 24 (extract64 a s.r.hi 3) (by rw [u1.len]; omega)
  rw [Nat.zero_add] at e hs1 hs2
  have hk2 : k2 = kAt k (4 * (len / 800)) := by
    refine words_ext (by rw [u2.len, u1.len, hk]) (length_kAt hk _) fun p hp => ?_
    rw [u2.wd, u1.wd]
    by_cases h24 : 24 ≤ p
    · obtain rfl : p = 24 := by omega
      rw [if_pos (by omega)]
      refine (extract64_ok ha s.r.hi 3).trans ((hs1.hi 3).trans (kAt_hi hk _ 4 (by omega)).symm)
    · rw [if_neg (by omega)]
      by_cases h20 : 20 ≤ p
      · rw [if_pos (by omega), Vec.at, dif_pos (by omega), hs1.lo]
        have := kAt_hi hk (4 * (len / 800)) (p - 20) (by omega)
        rw [show 20 + (p - 20) = p by omega] at this
        exact this.symm
      · rw [if_neg (by omega), kAt_lo hk _ (by omega)]
  have hr : Farfalle.rc C = rc1 := by funext k; rw [Farfalle.rc, hrc]; rfl
  unfold kravatteCompress
  simp only [Option.bind_eq_bind]
  rw [loadVec_ok _ _ _ (by omega), Option.bind_some, loadVec_ok _ _ _ (by omega), Option.bind_some, e, Option.bind_some]
  simp only
  rw [e1, Option.bind_some, e2, Option.bind_some, Farfalle.eat_fst, hr, hs2, hk2, Nat.mul_comm 4 (len / 800)]
  refine congrArg some (Prod.ext rfl (Prod.ext rfl ?_))
  show 8 * (len / 800 * (4 * 25)) = len / 800 * 800
  omega

end

/-! ### Expansion -/

theorem expandAsi_ok (a : Arch) (Ase L : Vec 4) (l : Fin 4) : expandAsi a Ase L l = if l.val = 3 then L 0 else Ase.at (l.val + 1) := by
  unfold expandAsi
  cases a.i386
  · rw [if_neg (by simp)]
    fin_cases l <;> rfl
  · rw [if_pos rfl]
    fin_cases l
    · rfl
    · rfl
    · rfl
    · show (extractEpi32 L 1 ++ BitVec.extractLsb' 0 32 (BitVec.extractLsb' 32 32 _ ++ extractEpi32 L 0) : Lane) = L 0
      rw [BitVec.extractLsb'_append_eq_right]
      exact halves (L 0)

theorem expandAsu_ok (a : Arch) (Ase L : Vec 4) (l : Fin 4) : expandAsu a Ase L l = if l.val = 0 then Ase 3 else L.at (l.val - 1) := by
  unfold expandAsu
  cases a.i386
  · rw [if_neg (by simp)]
    fin_cases l <;> rfl
  · rw [if_pos rfl]
    fin_cases l
    · show (extractEpi32 Ase 7 ++ BitVec.extractLsb' 0 32 (BitVec.extractLsb' 32 32 _ ++ extractEpi32 Ase 6) : Lane) = Ase 3
      rw [BitVec.extractLsb'_append_eq_right]
      exact halves (Ase 3)
    · rfl
    · rfl
    · rfl

theorem expandRoll_ok (a : Arch) {y : Bytes} (hy : y.length = 200) :
    ∃ m0 m1 m2 m3 m4 s0 s1 s2 s3 s4 L, expandRoll a y = some ((m0, m1, m2, m3, m4), (s0, s1, s2, s3, s4), L) ∧
      ∀ l : Fin 4, m0 l = eseq y (l.val + 0) ∧ m1 l = eseq y (l.val + 1) ∧ m2 l = eseq y (l.val + 2) ∧ m3 l = eseq y (l.val + 3) ∧
        m4 l = eseq y (l.val + 4) ∧ s0 l = eseq y (l.val + 5) ∧ s1 l = eseq y (l.val + 6) ∧ s2 l = eseq y (l.val + 7) ∧
        s3 l = eseq y (l.val + 8) ∧ s4 l = eseq y (l.val + 9) ∧ L l = eseq y (l.val + 10) := by
  have hv : ∀ i < 7, loadVec 4 y (8 * (15 + i)) = some fun l => eseq y (l.val + i) := by
    intro i hi
    rw [loadVec_ok _ _ _ (by omega)]
    refine congrArg some (funext fun l => ?_)
    have := yAt_hi hy 0 (i + l.val) (by omega)
    rw [Nat.zero_add, ← Nat.add_assoc, Nat.add_comm i] at this
    exact this
  unfold expandRoll
  simp only [Option.bind_eq_bind]
  rw [hv 0 (by omega), Option.bind_some, hv 1 (by omega), Option.bind_some, hv 2 (by omega), Option.bind_some, hv 3 (by omega), Option.bind_some,
    hv 4 (by omega), Option.bind_some, hv 5 (by omega), Option.bind_some, hv 6 (by omega), Option.bind_some]
  have hL : ∀ l : Fin 4, xor (xor (or (slli (fun l : Fin 4 => eseq y (l.val + 0)) 7) (srli (fun l : Fin 4 => eseq y (l.val + 0)) (64 - 7)))
      (or (slli (fun l : Fin 4 => eseq y (l.val + 1)) 18) (srli (fun l : Fin 4 => eseq y (l.val + 1)) (64 - 18))))
      (and (fun l : Fin 4 => eseq y (l.val + 2)) (srli (fun l : Fin 4 => eseq y (l.val + 1)) 1)) l = eseq y (l.val + 10) := by
    intro l
    rw [eseq_step hy]; rfl
  refine ⟨_, _, _, _, _, _, _, _, _, _, _, rfl, fun l => ⟨rfl, rfl, rfl, rfl, rfl, rfl, rfl, ?_, ?_, ?_, hL l⟩⟩
  · rw [expandAsi_ok]
    fin_cases l
    · rfl
    · rfl
    · rfl
    · exact hL 0
  · fin_cases l
    · rfl
    · rfl
    · exact hL 0
    · exact hL 1
  · rw [expandAsu_ok]
    fin_cases l
    · rfl
    · exact hL 0
    · exact hL 1
    · exact hL 2

theorem const5_ok {y : Bytes} (hy : y.length = 200) (i : Nat) (hi : i < 20) :
    const5 y i = some (set1 (wd y (i + 0)), set1 (wd y (i + 1)), set1 (wd y (i + 2)), set1 (wd y (i + 3)), set1 (wd y (i + 4))) := by
  unfold const5
  simp only [Option.bind_eq_bind]
  rw [loadWord_ok _ _ (by omega), Option.bind_some, loadWord_ok _ _ (by omega), Option.bind_some, loadWord_ok _ _ (by omega), Option.bind_some,
    loadWord_ok _ _ (by omega), Option.bind_some, loadWord_ok _ _ (by omega), Option.bind_some]

theorem expandLoad_ok {a : Arch} (ha : a.i386 = false) {y : Bytes} (hy : y.length = 200) :
    ∃ A, expandLoad a y = some (A, yAt y 4) ∧ ∀ p < 25, ∀ l : Fin 4, A.get p l = wd (yAt y l.val) p := by
  obtain ⟨m0, m1, m2, m3, m4, s0, s1, s2, s3, s4, L, e, h⟩ := expandRoll_ok a hy
  obtain ⟨y1, e1, u1⟩ := storeVec_ok y 15 m4 (by omega)
  obtain ⟨y2, e2, u2⟩ := storeWord_ok y1 19 (extract64 a s3 0) (by rw [u1.len]; omega)
  obtain ⟨y3, e3, u3⟩ := storeWord_ok y2 20 (extract64 a s3 1) (by rw [u2.len, u1.len]; omega)
  obtain ⟨y4, e4, u4⟩ := storeVec_ok y3 21 L (by rw [u3.len, u2.len, u1.len]; omega)
  have hy4 : y4 = yAt y 4 := by
    refine words_ext (by rw [u4.len, u3.len, u2.len, u1.len, hy]) (length_yAt hy _) fun p hp => ?_
    rw [u4.wd, u3.wd, u2.wd, u1.wd]
    by_cases h15 : p < 15
    · rw [if_neg (by omega), if_neg (by omega), if_neg (by omega), if_neg (by omega), yAt_lo hy _ h15]
    · obtain ⟨j, rfl⟩ : ∃ j, p = 15 + j := ⟨p - 15, by omega⟩
      have hj : j < 10 := by omega
      rw [yAt_hi hy 4 j hj]
      have x0 := extract64_ok ha s3 0
      have x1 := extract64_ok ha s3 1
      clear hp h15
      interval_cases j
      exacts [(h 0).2.2.2.2.1, (h 1).2.2.2.2.1, (h 2).2.2.2.2.1, (h 3).2.2.2.2.1, x0.trans (h 0).2.2.2.2.2.2.2.2.1, x1.trans (h 1).2.2.2.2.2.2.2.2.1,
        (h 0).2.2.2.2.2.2.2.2.2.2, (h 1).2.2.2.2.2.2.2.2.2.2, (h 2).2.2.2.2.2.2.2.2.2.2, (h 3).2.2.2.2.2.2.2.2.2.2]
  refine ⟨⟨set1 (wd y 0), set1 (wd y 1), set1 (wd y 2), set1 (wd y 3), set1 (wd y 4), set1 (wd y 5), set1 (wd y 6), set1 (wd y 7), set1 (wd y 8),
    set1 (wd y 9), set1 (wd y 10), set1 (wd y 11), set1 (wd y 12), set1 (wd y 13), set1 (wd y 14), m0, m1, m2, m3, m4, s0, s1, s2, s3, s4⟩, ?_, ?_⟩
  · unfold expandLoad
    simp only [Option.bind_eq_bind]
    rw [const5_ok hy 0 (by omega), Option.bind_some, const5_ok hy 5 (by omega), Option.bind_some, const5_ok hy 10 (by omega), Option.bind_some,
      e, Option.bind_some]
    simp only
    rw [e1, Option.bind_some, e2, Option.bind_some, e3, Option.bind_some, e4, Option.bind_some, hy4]
  · intro p hp l
    by_cases h15 : p < 15
    · rw [yAt_lo hy _ h15]
      interval_cases p <;> rfl
    · obtain ⟨j, rfl⟩ : ∃ j, p = 15 + j := ⟨p - 15, by omega⟩
      have hj : j < 10 := by omega
      rw [yAt_hi hy _ j hj]
      obtain ⟨g0, g1, g2, g3, g4, g5, g6, g7, g8, g9, -⟩ := h l
      clear hp h15
      interval_cases j
      exacts [g0, g1, g2, g3, g4, g5, g6, g7, g8, g9]

theorem storeVec_at {out : Bytes} {q : Nat} (row p : Nat) (e : q = 8 * (row * 25 + p)) (h : 200 * (row + 1) ≤ out.length) (hp : p + 4 ≤ 25)
    {v : Vec 4} {f : Nat → Nat → Lane} (hf : ∀ l : Fin 4, v l = f row (p + l.val)) :
    ∃ out', storeVec out q v = some out' ∧ OUpd 25 out out' row (row + 1) p (p + 4) f := by
  obtain ⟨b, h1, h2⟩ := storeVec_ok out (row * 25 + p) v (by omega)
  refine ⟨b, by rw [e]; exact h1, OUpd.of_stored h2 (by omega) fun j hj => ?_⟩
  rw [Vec.at, dif_pos hj]; exact hf ⟨j, hj⟩

theorem storeWord_at {out : Bytes} {q : Nat} (row p : Nat) (e : q = 8 * (row * 25 + p)) (h : 200 * (row + 1) ≤ out.length) (hp : p < 25)
    {w : Lane} {f : Nat → Nat → Lane} (hf : w = f row p) :
    ∃ out', storeWord out q w = some out' ∧ OUpd 25 out out' row (row + 1) p (p + 1) f := by
  obtain ⟨b, h1, h2⟩ := storeWord_ok out (row * 25 + p) w (by omega)
  refine ⟨b, by rw [e]; exact h1, OUpd.of_stored h2 (by omega) fun j hj => ?_⟩
  obtain rfl : j = 0 := by omega
  exact hf

section

variable {kRoll out : Bytes} (hk : kRoll.length = 200) (r : Nat) (hout : 200 * (r + 4) ≤ out.length) (A : V (Vec 4)) {f : Nat → Nat → Lane}
  (hf : ∀ p < 25, ∀ l : Fin 4, A.get p l ^^^ wd kRoll p = f (r + l.val) p)

include hk hout hf

theorem extrAddKey4_ok (i : Nat) (hi : i + 4 ≤ 25) (l : Four) (hl : ∀ j : Fin 4, l.get j = A.get (i + j.val)) {m : Bytes}
    (hu : OUpd 25 out m r (r + 4) 0 i f) :
    ∃ m', extrAddKey4 kRoll (200 * r) l i m = some m' ∧ OUpd 25 out m' r (r + 4) 0 (i + 4) f := by
  have hm : m.length = out.length := hu.len
  obtain ⟨l', e, hl'⟩ := addKey4_ok hk i hi l
  have hv : ∀ k j : Fin 4, (unintleave l').get k j = f (r + k.val) (i + j.val) := fun k j => by
    rw [unintleave_get, hl', hl]; exact hf _ (by omega) k
  obtain ⟨o1, e1, u1⟩ := storeVec_at (out := m) (q := 200 * r + 8 * (i + 0 * 25)) r i (by omega) (by omega) hi (v := (unintleave l').l0) (f := f)
    (fun j => hv 0 j)
  obtain ⟨o2, e2, u2⟩ := storeVec_at (out := o1) (q := 200 * r + 8 * (i + 1 * 25)) (r + 1) i (by omega) (by rw [u1.len]; omega) hi
    (v := (unintleave l').l1) (f := f) (fun j => hv 1 j)
  obtain ⟨o3, e3, u3⟩ := storeVec_at (out := o2) (q := 200 * r + 8 * (i + 2 * 25)) (r + 2) i (by omega) (by rw [u2.len, u1.len]; omega) hi
    (v := (unintleave l').l2) (f := f) (fun j => hv 2 j)
  obtain ⟨o4, e4, u4⟩ := storeVec_at (out := o3) (q := 200 * r + 8 * (i + 3 * 25)) (r + 3) i (by omega) (by rw [u3.len, u2.len, u1.len]; omega) hi
    (v := (unintleave l').l3) (f := f) (fun j => hv 3 j)
  refine ⟨o4, ?_, hu.cols (((u1.rows u2 (by omega) (by omega)).rows u3 (by omega) (by omega)).rows u4 (by omega) (by omega)) (by omega) (by omega)⟩
  unfold extrAddKey4
  simp only [Option.bind_eq_bind]
  rw [e, Option.bind_some, e1, Option.bind_some, e2, Option.bind_some, e3, Option.bind_some, e4]

theorem extrAddKey_ok {a : Arch} (ha : a.i386 = false) (i : Nat) (hi : i < 25) {m : Bytes}
    (hu : OUpd 25 out m r (r + 4) 0 i f) :
    ∃ m', extrAddKey a kRoll (200 * r) (A.get i) i m = some m' ∧ OUpd 25 out m' r (r + 4) 0 (i + 1) f := by
  have hm : m.length = out.length := hu.len
  have hv : ∀ k : Fin 4, extract64 a (xor (A.get i) (set1 (wd kRoll i))) k.val = f (r + k.val) i := fun k => by
    rw [extract64_ok ha]; exact hf _ (by omega) k
  obtain ⟨o1, e1, u1⟩ := storeWord_at (out := m) (q := 200 * r + 8 * (i + 0 * 25)) r i (by omega) (by omega) hi (f := f) (hv 0)
  obtain ⟨o2, e2, u2⟩ := storeWord_at (out := o1) (q := 200 * r + 8 * (i + 1 * 25)) (r + 1) i (by omega) (by rw [u1.len]; omega) hi (f := f) (hv 1)
  obtain ⟨o3, e3, u3⟩ := storeWord_at (out := o2) (q := 200 * r + 8 * (i + 2 * 25)) (r + 2) i (by omega) (by rw [u2.len, u1.len]; omega) hi
    (f := f) (hv 2)
  obtain ⟨o4, e4, u4⟩ := storeWord_at (out := o3) (q := 200 * r + 8 * (i + 3 * 25)) (r + 3) i (by omega) (by rw [u3.len, u2.len, u1.len]; omega) hi
    (f := f) (hv 3)
  refine ⟨o4, ?_, hu.cols (((u1.rows u2 (by omega) (by omega)).rows u3 (by omega) (by omega)).rows u4 (by omega) (by omega)) (by omega) (by omega)⟩
  unfold extrAddKey
  simp only [Option.bind_eq_bind]
  rw [loadWord_ok _ _ (by omega), Option.bind_some]
  exact (by rw [Option.bind_eq_some_iff]; exact ⟨o1, e1, by rw [Option.bind_eq_some_iff]; exact ⟨o2, e2, by
    rw [Option.bind_eq_some_iff]; exact ⟨o3, e3, e4⟩⟩⟩)

theorem expandStore_ok {a : Arch} (ha : a.i386 = false) :
    ∃ out', expandStore a kRoll (200 * r) A out = some out' ∧ OUpd 25 out out' r (r + 4) 0 25 f := by
  obtain ⟨m1, e1, u1⟩ := extrAddKey4_ok hk r hout A hf 0 (by omega) ⟨A.ba, A.be, A.bi, A.bo⟩ (fun j => by fin_cases j <;> rfl) (OUpd.refl _ _ _ _ _)
  obtain ⟨m2, e2, u2⟩ := extrAddKey4_ok hk r hout A hf 4 (by omega) ⟨A.bu, A.ga, A.ge, A.gi⟩ (fun j => by fin_cases j <;> rfl) u1
  obtain ⟨m3, e3, u3⟩ := extrAddKey4_ok hk r hout A hf 8 (by omega) ⟨A.go, A.gu, A.ka, A.ke⟩ (fun j => by fin_cases j <;> rfl) u2
  obtain ⟨m4, e4, u4⟩ := extrAddKey4_ok hk r hout A hf 12 (by omega) ⟨A.ki, A.ko, A.ku, A.ma⟩ (fun j => by fin_cases j <;> rfl) u3
  obtain ⟨m5, e5, u5⟩ := extrAddKey4_ok hk r hout A hf 16 (by omega) ⟨A.me, A.mi, A.mo, A.mu⟩ (fun j => by fin_cases j <;> rfl) u4
  obtain ⟨m6, e6, u6⟩ := extrAddKey4_ok hk r hout A hf 20 (by omega) ⟨A.sa, A.se, A.si, A.so⟩ (fun j => by fin_cases j <;> rfl) u5
  obtain ⟨m7, e7, u7⟩ := extrAddKey_ok hk r hout A hf ha 24 (by omega) u6
  refine ⟨m7, ?_, u7⟩
  unfold expandStore
  simp only [Option.bind_eq_bind]
  rw [e1, Option.bind_some, e2, Option.bind_some, e3, Option.bind_some, e4, Option.bind_some, e5, Option.bind_some, e6, Option.bind_some]
  exact e7

end

/-- Word `p` of block `r` of the output. -/
def outWord (kRoll y : Bytes) (r p : Nat) : Lane := wd (F6 (yAt y r)) p ^^^ wd kRoll p

theorem expandBody_ok {a : Arch} (ha : a.i386 = false) (unr : Unrolling) {kRoll : Bytes} (hk : kRoll.length = 200) (y : Bytes) (hy : y.length = 200)
    (t : Nat) (s : ESt) (hs : s.y = yAt y t) (hout : 200 * (t + 4) ≤ s.out.length) :
    ∃ s', expandBody a unr kRoll (200 * t) s = some s' ∧ s'.y = yAt y (t + 4) ∧ OUpd 25 s.out s'.out t (t + 4) 0 25 (outWord kRoll y) := by
  obtain ⟨A, e1, hA⟩ := expandLoad_ok ha (y := s.y) (by rw [hs]; exact length_yAt hy t)
  have hA' : ∀ p < 25, ∀ l : Fin 4, A.get p l = wd (yAt y (t + l.val)) p := fun p hp l => by rw [hA p hp l, hs, ← yAt_add]
  have hrs : ∀ l : Fin 4, stateOf (rounds6 rounds unr ⟨A, s.J.E, s.J.c⟩) l.val = F6 (yAt y (t + l.val)) := fun l => by
    rw [rounds_stateOf (n := 6) (fun l s => rounds6_rep (rounds_sound l) unr s) _ _ l.isLt]
    exact congrArg _ (stateOf_words (length_yAt hy _) fun p hp => hA' p hp l)
  obtain ⟨o, e2, u⟩ := expandStore_ok hk t hout (rounds6 rounds unr ⟨A, s.J.E, s.J.c⟩).A (f := outWord kRoll y) (fun p hp l => by
    rw [outWord, ← hrs l, wd_stateOf _ _ hp]) ha
  refine ⟨⟨yAt s.y 4, o, ⟨(rounds6 rounds unr ⟨A, s.J.E, s.J.c⟩).E, (rounds6 rounds unr ⟨A, s.J.E, s.J.c⟩).c⟩⟩, ?_, ?_, u⟩
  · unfold expandBody
    simp only [Option.bind_eq_bind]
    rw [e1, Option.bind_some, e2, Option.bind_some]
  · show yAt s.y 4 = _
    rw [hs, ← yAt_add]

section

variable {C : Farfalle.Cfg} (hp : C.permute = F6) (hre : C.rolle = rolle)

include hp hre in
theorem getD_gen {kRoll : Bytes} (hk : kRoll.length = 200) : ∀ (n : Nat) (y : Bytes) (q : Nat), y.length = 200 → q < 200 * n →
    (Farfalle.gen C kRoll n y).getD q 0 = KeccakP1600.byteOf (outWord kRoll y (q / 8 / 25) (q / 8 % 25)) (q % 8)
  | 0, _, q, _, h => by omega
  | n + 1, y, q, hy, h => by
    have hr : Farfalle.re C y = re1 y := by rw [Farfalle.re, hre]; rfl
    have hl : (Bytes.xor kRoll (F6 y)).length = 200 := by rw [Bytes.length_xor, hk, length_F6]; rfl
    rw [Farfalle.gen, hp, hr]
    by_cases h2 : q < 200
    · rw [List.getD_append _ _ _ _ (by omega), outWord, show q / 8 / 25 = 0 by omega, show q / 8 % 25 = q / 8 by omega, KeccakP1600.byteOf_xor,
        byteOf_wd _ _ _ (by omega), byteOf_wd _ _ _ (by omega), getD_xor _ _ _ (by omega) (by rw [length_F6]; omega), BitVec.xor_comm,
        show 8 * (q / 8) + q % 8 = q by omega]
      rfl
    · rw [List.getD_append_right _ _ _ _ (by omega), hl, getD_gen hk n (re1 y) (q - 200) (length_re1 hy) (by omega), outWord, outWord,
        show q / 8 / 25 = (q - 200) / 8 / 25 + 1 by omega, show q / 8 % 25 = (q - 200) / 8 % 25 by omega, show q % 8 = (q - 200) % 8 by omega]
      have : yAt (re1 y) ((q - 200) / 8 / 25) = yAt y ((q - 200) / 8 / 25 + 1) := by
        rw [Nat.add_comm, yAt_add]; rfl
      rw [this]

include hp in
theorem length_gen6 {kRoll : Bytes} (hk : kRoll.length = 200) : ∀ (n : Nat) (y : Bytes), (Farfalle.gen C kRoll n y).length = 200 * n
  | 0, _ => rfl
  | n + 1, y => by
    rw [Farfalle.gen, List.length_append, hp, Bytes.length_xor, hk, length_F6, length_gen6 hk]
    simp only [Nat.min_self]; omega

include hp hre in
/-- `KeccakP1600times4_KravatteExpand` writes the blocks one after the other. -/
theorem kravatteExpand_ok {a : Arch} (ha : a.i386 = false) (unr : Unrolling) (J : Junk) (fuel : Nat) (y kRoll output : Bytes) (len : Nat)
    (hk : kRoll.length = 200) (hy : y.length = 200) (h8 : 800 ≤ len) (hl : len ≤ output.length) (h64 : len < 2 ^ 64) (hf : len ≤ fuel) :
    kravatteExpand a unr J fuel y kRoll output len = some (Nat.repeat (Farfalle.re C) (len / 800 * 4) y,
      Farfalle.gen C kRoll (len / 800 * 4) y ++ output.drop (len / 800 * 800), len / 800 * 800) := by
  obtain ⟨s, e, hs1, hs2⟩ := doWhile_inv (step := fun i s => expandBody a unr kRoll (8 * (i * (4 * 25))) s)
    (sizeT := a.sizeT) (fun i s => s.y = yAt y (4 * i) ∧ OUpd 25 output s.out 0 (4 * i) 0 25 (outWord kRoll y)) fuel (len / 800) 0
    ⟨y, output, J⟩ (by omega) (by rw [Arch.sizeT, ha, if_neg (by simp)]; omega) (by omega)
    (fun i s _ hi hI => by
      obtain ⟨h1, h2⟩ := hI
      obtain ⟨s', g1, g2, g3⟩ := expandBody_ok ha unr hk y hy (4 * i) s h1 (by rw [h2.len]; omega)
      refine ⟨s', ?_, g2, h2.rows g3 (by omega) (by omega)⟩
      rw [← g1]; congr 1; omega)
    ⟨rfl, ⟨rfl, fun q => by rw [if_neg (by omega)]⟩⟩
  rw [Nat.zero_add] at e hs1 hs2
  have hr : Farfalle.re C = re1 := by funext k; rw [Farfalle.re, hre]; rfl
  have hg := length_gen6 hp hk (len / 800 * 4) y
  have ho : s.out = Farfalle.gen C kRoll (len / 800 * 4) y ++ output.drop (len / 800 * 800) := by
    apply bytes_ext
    · rw [hs2.len, List.length_append, hg, List.length_drop]; omega
    · intro q _
      rw [hs2.byte]
      by_cases hq : q < 200 * (len / 800 * 4)
      · rw [if_pos (by omega), List.getD_append _ _ _ _ (by omega), getD_gen hp hre hk _ _ _ hy hq]
      · rw [if_neg (by omega), List.getD_append_right _ _ _ _ (by omega), hg, List.getD_eq_getElem?_getD, List.getD_eq_getElem?_getD,
          List.getElem?_drop]
        congr 2; omega
  unfold kravatteExpand
  simp only [Option.bind_eq_bind]
  rw [e, Option.bind_some]
  simp only
  rw [hs1, ho, hr, Nat.mul_comm 4 (len / 800)]
  refine congrArg some (Prod.ext rfl (Prod.ext rfl ?_))
  show 8 * (len / 800 * (4 * 25)) = len / 800 * 800
  omega

end

/-! ### The macro for i386 -/

theorem extract64_i386 {a : Arch} (ha : a.i386 = true) (v : Vec 4) (i : Nat) : extract64 a v i = 0 ∨ extract64 a v i = 1 := by
  unfold extract64
  rw [ha, if_pos rfl]
  split
  · exact .inr rfl
  · exact .inl rfl

theorem compressStore_some (a : Arch) (A : V (Vec 4)) {x : Bytes} (hx : x.length = 200) :
    ∃ x', compressStore a A x = some x' ∧ x'.length = 200 := by
  have u0 : WUpd x x 0 0 (fun p => wd x p ^^^ sum4 A p) := ⟨rfl, fun p => by rw [if_neg (by omega)]⟩
  obtain ⟨m1, e1, u1⟩ := extrAccu4_ok A 0 (by omega) ⟨A.ba, A.be, A.bi, A.bo⟩ (fun j => by fin_cases j <;> rfl) hx u0
  obtain ⟨m2, e2, u2⟩ := extrAccu4_ok A 4 (by omega) ⟨A.bu, A.ga, A.ge, A.gi⟩ (fun j => by fin_cases j <;> rfl) hx u1
  obtain ⟨m3, e3, u3⟩ := extrAccu4_ok A 8 (by omega) ⟨A.go, A.gu, A.ka, A.ke⟩ (fun j => by fin_cases j <;> rfl) hx u2
  obtain ⟨m4, e4, u4⟩ := extrAccu4_ok A 12 (by omega) ⟨A.ki, A.ko, A.ku, A.ma⟩ (fun j => by fin_cases j <;> rfl) hx u3
  obtain ⟨m5, e5, u5⟩ := extrAccu4_ok A 16 (by omega) ⟨A.me, A.mi, A.mo, A.mu⟩ (fun j => by fin_cases j <;> rfl) hx u4
  obtain ⟨m6, e6, u6⟩ := extrAccu4_ok A 20 (by omega) ⟨A.sa, A.se, A.si, A.so⟩ (fun j => by fin_cases j <;> rfl) hx u5
  have l6 : m6.length = 200 := u6.len.trans hx
  obtain ⟨m7, e7, u7⟩ := storeWord_ok m6 24 (wd m6 24 ^^^ (extract64 a A.su 0 ^^^ extract64 a A.su 1 ^^^ extract64 a A.su 2 ^^^
    extract64 a A.su 3)) (by omega)
  refine ⟨m7, ?_, u7.len.trans l6⟩
  unfold compressStore
  simp only [Option.bind_eq_bind]
  rw [e1, Option.bind_some, e2, Option.bind_some, e3, Option.bind_some, e4, Option.bind_some, e5, Option.bind_some, e6, Option.bind_some]
  unfold extrAccu
  simp only [Option.bind_eq_bind]
  rw [loadWord_ok _ _ (by omega), Option.bind_some, e7]

theorem kravatteCompress_i386 {a : Arch} (ha : a.i386 = true) (unr : Unrolling) (J : Junk) (fuel : Nat) (x k input : Bytes) (len : Nat)
    (hk : k.length = 200) (hx : x.length = 200) (h8 : 800 ≤ len) (hl : len ≤ input.length) (h32 : len < 2 ^ 32) (hf : len ≤ fuel) :
    ∃ k' x', kravatteCompress a unr J fuel x k input len = some (k', x', len / 800 * 800) ∧ k'.length = 200 ∧ x'.length = 200 ∧
      (wd k' 24 = 0 ∨ wd k' 24 = 1) := by
  obtain ⟨s, e, hs1, hs2⟩ := doWhile_inv (step := fun i s => compressBody a unr k (input.drop (8 * (i * (4 * 25)))) s)
    (sizeT := a.sizeT) (fun i s => RollAt k (4 * i) s.r ∧ s.x.length = 200) fuel (len / 800) 0
    ⟨⟨fun l => wd k (20 + l.val), fun l => wd k (21 + l.val)⟩, x, J⟩ (by omega)
    (by rw [Arch.sizeT, ha, if_pos rfl]; omega) (by omega)
    (fun i s _ hi hI => by
      obtain ⟨h1, h2⟩ := hI
      obtain ⟨A, r', e1, hr', -⟩ := compressLoad_ok a (in64 := input.drop (8 * (i * (4 * 25)))) hk (by rw [List.length_drop]; omega) (4 * i) s.r h1
      obtain ⟨x', e2, hl'⟩ := compressStore_some a (rounds6 rounds unr ⟨A, s.J.E, s.J.c⟩).A h2
      refine ⟨⟨r', x', ⟨(rounds6 rounds unr ⟨A, s.J.E, s.J.c⟩).E, (rounds6 rounds unr ⟨A, s.J.E, s.J.c⟩).c⟩⟩, ?_, hr', hl'⟩
      unfold compressBody
      simp only [Option.bind_eq_bind]
      rw [e1, Option.bind_some, e2, Option.bind_some])
    ⟨⟨fun l => kAt_hi hk 0 l.val (by omega), fun l => by
      show wd k (21 + l.val) = _
      rw [show 21 + l.val = 20 + (l.val + 1) by omega]
      exact kAt_hi hk 0 (l.val + 1) (by omega)⟩, hx⟩
  obtain ⟨k1, e1, u1⟩ := storeVec_ok k 20 s.r.lo (by omega)
  obtain ⟨k2, e2, u2⟩ := storeWord_ok k1 24 (extract64 a s.r.hi 3) (by rw [u1.len]; omega)
  rw [Nat.zero_add] at e
  refine ⟨k2, s.x, ?_, by rw [u2.len, u1.len, hk], hs2, ?_⟩
  · unfold kravatteCompress
    simp only [Option.bind_eq_bind]
    rw [loadVec_ok _ _ _ (by omega), Option.bind_some, loadVec_ok _ _ _ (by omega), Option.bind_some, e, Option.bind_some]
    simp only
    rw [e1, Option.bind_some, e2, Option.bind_some]
    refine congrArg some (Prod.ext rfl (Prod.ext rfl ?_))
    show 8 * (len / 800 * (4 * 25)) = len / 800 * 800
    omega
  · rw [u2.wd, if_pos (by omega)]
    exact extract64_i386 ha _ _

end Times4
