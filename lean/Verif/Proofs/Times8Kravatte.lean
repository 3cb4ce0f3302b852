import Verif.Model.Times8Kravatte
import Verif.Proofs.Times4Kravatte
import Verif.Proofs.Avx512Leaves
import Verif.Proofs.KeccakPlane512

/-!
The functions for Kravatte of the AVX-512 implementation of eight states, against the serial computation.
-/

namespace Times8

open Simd
open Kravatte
open KeccakP1600 (Lane bytesOfLanes)
open Avx512 (gather scatter ops IdxOk stateOf ren2)
open Plane512 (setr permutex2var maskzLoad maskStore)
open Times4 (F6 length_F6 doWhile_inv WUpd loadWord_at storeWord_at outWord)

theorem gs_ok : IdxOk 8 8 25 oGatherScatter := by
  intro i hi
  interval_cases i <;> decide +kernel

theorem acc8 {b : Bytes} (h : 1600 ≤ b.length) : Acc 8 25 25 b := Avx512.acc_of (by decide) (by omega)

theorem loadInput_ok {in64 : Bytes} (h : 1600 ≤ in64.length) (i : Nat) (hi : i < 25) :
    loadInput in64 i = some fun l => wd in64 (l.val * 25 + i) := by
  unfold loadInput
  rw [Avx512.gather_eq gs_ok (by omega) (Nat.mul_one 8).symm (by omega) (acc8 h) i (by omega)]
  refine congrArg some (funext fun l => ?_)
  rw [Nat.mod_eq_of_lt l.isLt, Nat.div_eq_of_lt l.isLt]; rfl

theorem addInput_ok {k in64 : Bytes} (hk : k.length = 200) (h : 1600 ≤ in64.length) (i : Nat) (hi : i < 25) :
    addInput k in64 i = some fun l => wd in64 (l.val * 25 + i) ^^^ wd k i := by
  unfold addInput
  simp only [Option.bind_eq_bind]
  rw [loadInput_ok h i hi, Option.bind_some, loadWord_ok _ _ (by omega), Option.bind_some]
  rfl

theorem xorInput_ok {in64 : Bytes} (h : 1600 ≤ in64.length) (v : Vec 8) (i : Nat) (hi : i < 25) :
    xorInput in64 v i = some fun l => v l ^^^ wd in64 (l.val * 25 + i) := by
  unfold xorInput
  simp only [Option.bind_eq_bind]
  rw [loadInput_ok h i hi, Option.bind_some]
  rfl

theorem row_ok {f : Nat → Option (Vec 8)} {g : Nat → Vec 8} (h : ∀ i < 25, f i = some (g i)) (i : Nat) (hi : i + 4 < 25) :
    row f i = some ⟨g i, g (i + 1), g (i + 2), g (i + 3), g (i + 4)⟩ := by
  unfold row
  simp only [Option.bind_eq_bind]
  rw [h _ (by omega), Option.bind_some, h _ (by omega), Option.bind_some, h _ (by omega), Option.bind_some, h _ (by omega), Option.bind_some,
    h _ (by omega), Option.bind_some]

/-! ### The rolling words -/

theorem rollStep_eq (a b : Vec 8) (l : Fin 8) : rollStep a b l = rol64 (a l) 7 ^^^ b l ^^^ (b l >>> 3) :=
  congrFun (Avx512.ternary_xor _ _ _) l

section

variable (f : Nat → Lane) (hf : ∀ n, f (n + 5) = rol64 (f n) 7 ^^^ f (n + 1) ^^^ (f (n + 1) >>> 3))

include hf

/-- The rolled words in the eight lanes.  The last lane of `x12345678` is not used. -/
theorem rollc_ok (r : Roll) (hlo : ∀ l : Fin 8, r.lo l = f l.val) (hhi : ∀ l : Fin 8, l.val < 7 → r.hi l = f (l.val + 1)) (l : Fin 8) :
    (rollc r).1.a l = f (l.val + 0) ∧ (rollc r).1.e l = f (l.val + 1) ∧ (rollc r).1.i l = f (l.val + 2) ∧ (rollc r).1.o l = f (l.val + 3) ∧
    (rollc r).1.u l = f (l.val + 4) ∧ (rollc r).2.lo l = f (l.val + 8) ∧ (l.val < 7 → (rollc r).2.hi l = f (l.val + 9)) := by
  have h5 : ∀ l : Fin 8, l.val < 7 → rollStep r.lo r.hi l = f (l.val + 5) := fun l hl => by rw [rollStep_eq, hlo, hhi l hl, ← hf]
  have he : ∀ l : Fin 8, (rollc r).1.e l = f (l.val + 1) := by
    intro l
    fin_cases l
    exacts [hlo 1, hlo 2, hlo 3, hlo 4, hlo 5, hlo 6, hlo 7, h5 3 (by decide)]
  have hi : ∀ l : Fin 8, (rollc r).1.i l = f (l.val + 2) := by
    intro l
    have key : ∀ a b : Vec 8, (∀ l, a l = f (l.val + 1)) → (∀ l, l.val < 7 → b l = f (l.val + 5)) → permutex2var a o1234567_4 b l = f (l.val + 2) := by
      intro a b ha hb
      fin_cases l
      exacts [ha 1, ha 2, ha 3, ha 4, ha 5, ha 6, ha 7, hb 4 (by decide)]
    exact key _ _ he h5
  have ho : ∀ l : Fin 8, (rollc r).1.o l = f (l.val + 3) := by
    intro l
    have key : ∀ a b : Vec 8, (∀ l, a l = f (l.val + 1)) → (∀ l, l.val < 7 → b l = f (l.val + 5)) → permutex2var a o234567_45 b l = f (l.val + 3) := by
      intro a b ha hb
      fin_cases l
      exacts [ha 2, ha 3, ha 4, ha 5, ha 6, ha 7, hb 4 (by decide), hb 5 (by decide)]
    exact key _ _ he h5
  have hu : ∀ l : Fin 8, (rollc r).1.u l = f (l.val + 4) := by
    intro l
    have key : ∀ a b : Vec 8, (∀ l, a l = f (l.val + 1)) → (∀ l, l.val < 7 → b l = f (l.val + 5)) → permutex2var a o34567_456 b l = f (l.val + 4) := by
      intro a b ha hb
      fin_cases l
      exacts [ha 3, ha 4, ha 5, ha 6, ha 7, hb 4 (by decide), hb 5 (by decide), hb 6 (by decide)]
    exact key _ _ he h5
  have h8 : ∀ l : Fin 8, (rollc r).2.lo l = f (l.val + 8) := fun l => by
    refine (rollStep_eq (rollc r).1.o (rollc r).1.u l).trans ?_
    rw [ho, hu, show l.val + 4 = l.val + 3 + 1 by omega, ← hf]
  refine ⟨hlo l, he l, hi l, ho l, hu l, h8 l, fun hl => ?_⟩
  have key : ∀ a : Vec 8, permutex2var a o1234567_4 a l = a ⟨l.val + 1, by omega⟩ := by
    intro a
    fin_cases l
    exacts [rfl, rfl, rfl, rfl, rfl, rfl, rfl, absurd hl (by decide)]
  refine (key (rollc r).2.lo).trans ?_
  rw [h8]

end

/-- The registers hold the words of the mask rolled `t` times. -/
structure RollAt (k : Bytes) (t : Nat) (r : Roll) : Prop where
  lo : ∀ l : Fin 8, r.lo l = cseq k (t + l.val)
  hi : ∀ l : Fin 8, l.val < 7 → r.hi l = cseq k (t + l.val + 1)

theorem rollInit_ok {k : Bytes} (hk : k.length = 200) : ∃ r, rollInit k = some r ∧ RollAt k 0 r := by
  have hw : ∀ j < 5, wd k (20 + j) = cseq k j := fun j hj => (kAt_hi hk 0 j hj).trans (by rw [Nat.zero_add])
  have e1 : maskzLoad 0x1F k (8 * 20) = some fun i => if i.val < 5 then wd k (20 + i.val) else 0 := by
    refine (Plane512.load_ok 5 k (8 * 20) (by omega)).trans (congrArg some (funext fun i => ?_))
    rw [← Nat.mul_add]; rfl
  have e2 : maskzLoad 0x0F k (8 * 21) = some fun i => if i.val < 4 then wd k (21 + i.val) else 0 := by
    refine (Plane512.load_ok 4 k (8 * 21) (by omega)).trans (congrArg some (funext fun i => ?_))
    rw [← Nat.mul_add]; rfl
  unfold rollInit
  simp only [Option.bind_eq_bind]
  rw [e1, Option.bind_some, e2, Option.bind_some]
  have h5 : ∀ l : Fin 8, l.val < 4 → rollStep (fun i : Fin 8 => if i.val < 5 then wd k (20 + i.val) else 0)
      (fun i : Fin 8 => if i.val < 4 then wd k (21 + i.val) else 0) l = cseq k (l.val + 5) := fun l hl => by
    have := cseq_step hk l.val
    rw [this, rollStep_eq]
    simp only [hl, if_true, show l.val < 5 by omega]
    rw [hw _ (by omega), show 21 + l.val = 20 + (l.val + 1) by omega, hw _ (by omega)]
  refine ⟨_, rfl, ⟨fun l => ?_, fun l hl => ?_⟩⟩
  · rw [Nat.zero_add]
    fin_cases l
    exacts [hw 0 (by omega), hw 1 (by omega), hw 2 (by omega), hw 3 (by omega), hw 4 (by omega), h5 0 (by decide), h5 1 (by decide), h5 2 (by decide)]
  · rw [Nat.zero_add]
    fin_cases l
    exacts [hw 1 (by omega), hw 2 (by omega), hw 3 (by omega), hw 4 (by omega), h5 0 (by decide), h5 1 (by decide), h5 2 (by decide), h5 3 (by decide)]

theorem compressLoad_ok {k in64 : Bytes} (hk : k.length = 200) (h : 1600 ≤ in64.length) (t : Nat) (r : Roll) (hr : RollAt k t r) :
    ∃ A r', compressLoad k in64 r = some (A, r') ∧ RollAt k (t + 8) r' ∧
      ∀ p < 25, ∀ l : Fin 8, A.get p l = wd in64 (l.val * 25 + p) ^^^ wd (kAt k (t + l.val)) p := by
  have hroll := rollc_ok (fun n => cseq k (t + n)) (fun n => cseq_step hk (t + n)) r hr.lo hr.hi
  have ha := fun i hi => addInput_ok hk h i hi
  unfold compressLoad
  simp only [Option.bind_eq_bind]
  rw [row_ok ha 0 (by omega), Option.bind_some, row_ok ha 5 (by omega), Option.bind_some, row_ok ha 10 (by omega), Option.bind_some,
    row_ok ha 15 (by omega), Option.bind_some, xorInput_ok h _ 20 (by omega), Option.bind_some, xorInput_ok h _ 21 (by omega), Option.bind_some,
    xorInput_ok h _ 22 (by omega), Option.bind_some, xorInput_ok h _ 23 (by omega), Option.bind_some, xorInput_ok h _ 24 (by omega),
    Option.bind_some]
  refine ⟨_, _, rfl, ⟨fun l => ?_, fun l hl => ?_⟩, ?_⟩
  · rw [(hroll l).2.2.2.2.2.1]; congr 1; omega
  · rw [(hroll l).2.2.2.2.2.2 hl]; congr 1; omega
  · intro p hp l
    obtain ⟨r0, r1, r2, r3, r4, -⟩ := hroll l
    have hhi : ∀ j < 5, wd (kAt k (t + l.val)) (20 + j) = cseq k (t + (l.val + j)) := fun j hj => by
      rw [kAt_hi hk _ _ hj, Nat.add_assoc]
    by_cases hp2 : p < 20
    · rw [kAt_lo hk _ hp2]
      interval_cases p <;> rfl
    · obtain ⟨j, rfl⟩ : ∃ j, p = 20 + j := ⟨p - 20, by omega⟩
      have hj : j < 5 := by omega
      rw [hhi j hj, BitVec.xor_comm]
      clear hp hp2
      interval_cases j
      · show (rollc r).1.a l ^^^ wd in64 (l.val * 25 + 20) = cseq k (t + (l.val + 0)) ^^^ wd in64 (l.val * 25 + 20)
        rw [r0]
      · show (rollc r).1.e l ^^^ wd in64 (l.val * 25 + 21) = cseq k (t + (l.val + 1)) ^^^ wd in64 (l.val * 25 + 21)
        rw [r1]
      · show (rollc r).1.i l ^^^ wd in64 (l.val * 25 + 22) = cseq k (t + (l.val + 2)) ^^^ wd in64 (l.val * 25 + 22)
        rw [r2]
      · show (rollc r).1.o l ^^^ wd in64 (l.val * 25 + 23) = cseq k (t + (l.val + 3)) ^^^ wd in64 (l.val * 25 + 23)
        rw [r3]
      · show (rollc r).1.u l ^^^ wd in64 (l.val * 25 + 24) = cseq k (t + (l.val + 4)) ^^^ wd in64 (l.val * 25 + 24)
        rw [r4]

/-! ### The sum of the lanes -/

/-- The sum of the eight lanes. -/
def sum8 (v : Vec 8) : Lane := v 0 ^^^ v 1 ^^^ v 2 ^^^ v 3 ^^^ v 4 ^^^ v 5 ^^^ v 6 ^^^ v 7

theorem sum8_tree (v : Vec 8) : ((v 0 ^^^ v 4) ^^^ (v 2 ^^^ v 6)) ^^^ ((v 1 ^^^ v 5) ^^^ (v 3 ^^^ v 7)) = sum8 v := by
  unfold sum8; ac_rfl

theorem sum8_xor (a b : Vec 8) : sum8 (xor a b) = sum8 a ^^^ sum8 b := by
  unfold sum8 Simd.xor; ac_rfl

theorem horizontal_ok (x0 x1 x2 x3 x4 x5 x6 x7 : Vec 8) (l : Fin 8) :
    horizontal x0 x1 x2 x3 x4 x5 x6 x7 l = sum8 (match l with
      | 0 => x0 | 1 => x1 | 2 => x2 | 3 => x3 | 4 => x4 | 5 => x5 | 6 => x6 | 7 => x7) := by
  fin_cases l
  exacts [sum8_tree x0, sum8_tree x1, sum8_tree x2, sum8_tree x3, sum8_tree x4, sum8_tree x5, sum8_tree x6, sum8_tree x7]

/-- The register of four lanes from which the last word is computed. -/
theorem horizontalLast_ok (v : Vec 8) : horizontalLast false v = sum8 v := sum8_tree v

theorem horizontalLast_i386 (v : Vec 8) : horizontalLast true v = 0 ∨ horizontalLast true v = 1 := by
  have h : ∀ (v : Vec 4) i, extract64 true v i = 0 ∨ extract64 true v i = 1 := by
    intro v i
    unfold extract64
    rw [if_pos rfl]
    split
    · exact .inr rfl
    · exact .inl rfl
  unfold horizontalLast
  simp only
  generalize xor (xor (extracti64x4 v 0) (extracti64x4 v 1)) (permute4x64 (xor (extracti64x4 v 0) (extracti64x4 v 1)) 0xEE) = w
  rcases h w 0 with h0 | h0 <;> rcases h w 1 with h1 | h1 <;> rw [h0, h1] <;> decide

theorem accumulate_get (X A : V (Vec 8)) (p : Nat) (hp : p < 25) : (accumulate X A).get p = xor (X.get p) (A.get p) := by
  interval_cases p <;> rfl

theorem zeroX_get (p : Nat) (hp : p < 25) : zeroX.get p = set1 0 := by
  interval_cases p <;> rfl

theorem compressStore_ok (i386 : Bool) (X : V (Vec 8)) {x : Bytes} (hx : x.length = 200) :
    ∃ x', compressStore i386 X x = some x' ∧ x'.length = 200 ∧ (∀ p < 24, wd x' p = wd x p ^^^ sum8 (X.get p)) ∧
      wd x' 24 = wd x 24 ^^^ horizontalLast i386 X.su := by
  have g : ∀ (i : Nat) (m : Bytes) (H : Vec 8), i + 8 ≤ 24 → WUpd x m 0 i (fun p => wd x p ^^^ sum8 (X.get p)) →
      (∀ l : Fin 8, H l = sum8 (X.get (i + l.val))) → ∃ m', storeVec m (8 * i) (xor H fun l => wd x (i + l.val)) = some m' ∧
        WUpd x m' 0 (i + 8) (fun p => wd x p ^^^ sum8 (X.get p)) := by
    intro i m H hi hu hH
    obtain ⟨m', e, hs⟩ := storeVec_ok m i (xor H fun l : Fin 8 => wd x (i + l.val)) (by rw [hu.len]; omega)
    refine ⟨m', e, hu.trans (.of_stored hs fun j hj => ?_) (by omega) (by omega)⟩
    rw [Vec.at, dif_pos hj]
    show H ⟨j, hj⟩ ^^^ wd x (i + j) = _
    rw [hH, BitVec.xor_comm]
  have u0 : WUpd x x 0 0 (fun p => wd x p ^^^ sum8 (X.get p)) := ⟨rfl, fun p => by rw [if_neg (by omega)]⟩
  obtain ⟨m1, e1, u1⟩ := g 0 x (horizontal X.ba X.be X.bi X.bo X.bu X.ga X.ge X.gi) (by omega) u0
    (fun l => by rw [horizontal_ok]; fin_cases l <;> rfl)
  obtain ⟨m2, e2, u2⟩ := g 8 m1 (horizontal X.go X.gu X.ka X.ke X.ki X.ko X.ku X.ma) (by omega) u1
    (fun l => by rw [horizontal_ok]; fin_cases l <;> rfl)
  obtain ⟨m3, e3, u3⟩ := g 16 m2 (horizontal X.me X.mi X.mo X.mu X.sa X.se X.si X.so) (by omega) u2
    (fun l => by rw [horizontal_ok]; fin_cases l <;> rfl)
  have l3 : m3.length = 200 := u3.len.trans hx
  obtain ⟨m4, e4, u4⟩ := storeWord_ok m3 24 (wd m3 24 ^^^ horizontalLast i386 X.su) (by omega)
  refine ⟨m4, ?_, u4.len.trans l3, fun p hp => ?_, ?_⟩
  · unfold compressStore
    simp only [Option.bind_eq_bind]
    rw [loadVec_ok 8 x 0 (by omega), Option.bind_some, loadVec_ok 8 x 8 (by omega), Option.bind_some, loadVec_ok 8 x 16 (by omega),
      Option.bind_some, e1, Option.bind_some, e2, Option.bind_some, e3, Option.bind_some, loadWord_ok _ _ (by omega), Option.bind_some, e4]
  · rw [u4.wd, if_neg (by omega), u3.word, if_pos (by omega)]
  · rw [u4.wd, if_pos (by omega), u3.word, if_neg (by omega)]

/-! ### Six rounds -/

theorem ren2_remap {α : Type} (I : V α) : ren2 (remap I) = I := rfl

theorem wd_stateOf (A : V (Vec 8)) (l : Fin 8) {p : Nat} (hp : p < 25) : wd (stateOf A l.val) p = A.get p l := by
  rw [stateOf, wd_bytesOfLanes _ hp, lanesOf_get, Vec.at, dif_pos l.isLt]

theorem stateOf_words {A : V (Vec 8)} {l : Fin 8} {b : Bytes} (hb : b.length = 200) (h : ∀ p < 25, A.get p l = wd b p) :
    stateOf A l.val = b := by
  have hl : (stateOf A l.val).length = 200 := KeccakP1600.length_bytesOfLanes _
  refine words_ext hl hb fun p hp => ?_
  rw [wd_stateOf _ _ hp]
  exact h p hp

theorem rounds6_state (A : V (Vec 8)) (l : Fin 8) : stateOf (Avx512.rounds6 (ops 8) (remap A)) l.val = F6 (stateOf A l.val) :=
  Avx512.rounds_stateOf (R := fun A => Avx512.rounds6 (ops 8) (remap A)) (n := 6)
    (fun l s => by rw [Avx512.rounds6_ok (Avx512.ops_ok l), ren2_remap]) A l.val l.isLt

theorem rounds6_get {A : V (Vec 8)} {l : Fin 8} {b : Bytes} (hb : b.length = 200) (h : ∀ p < 25, A.get p l = wd b p) (p : Nat) (hp : p < 25) :
    (Avx512.rounds6 (ops 8) (remap A)).get p l = wd (F6 b) p := by
  rw [← wd_stateOf _ l hp, rounds6_state, stateOf_words hb h]

/-! ### Compression -/

/-- Word `p` of what block `t` adds to the accumulator. -/
def inWord (k d : Bytes) (t p : Nat) : Lane := wd (F6 (Bytes.xor (kAt k t) ((d.drop (200 * t)).take 200))) p

/-- What eight blocks add. -/
def inWord8 (k d : Bytes) (t p : Nat) : Lane :=
  inWord k d t p ^^^ inWord k d (t + 1) p ^^^ inWord k d (t + 2) p ^^^ inWord k d (t + 3) p ^^^ inWord k d (t + 4) p ^^^ inWord k d (t + 5) p ^^^
    inWord k d (t + 6) p ^^^ inWord k d (t + 7) p

theorem compressBody_ok {k d : Bytes} (hk : k.length = 200) (t : Nat) (h : 200 * (t + 8) ≤ d.length) (s : CSt) (hr : RollAt k t s.r) :
    ∃ s', compressBody k (d.drop (200 * t)) s = some s' ∧ RollAt k (t + 8) s'.r ∧
      ∀ p < 25, sum8 (s'.X.get p) = sum8 (s.X.get p) ^^^ inWord8 k d t p := by
  obtain ⟨A, r', e1, hr', hA⟩ := compressLoad_ok hk (in64 := d.drop (200 * t)) (by rw [List.length_drop]; omega) t s.r hr
  have hst : ∀ (l : Fin 8) (p : Nat), p < 25 → (Avx512.rounds6 (ops 8) (remap A)).get p l = inWord k d (t + l.val) p := by
    intro l p hp
    have h1 := length_kAt hk (t + l.val)
    have h2 : ((d.drop (200 * (t + l.val))).take 200).length = 200 := by rw [List.length_take, List.length_drop]; omega
    refine rounds6_get (by rw [Bytes.length_xor, h1, h2]; rfl) (fun p hp => ?_) p hp
    rw [wd_xor h1 h2 hp, wd_take (by omega), show 200 * (t + l.val) = 200 * t + 8 * (l.val * 25) by omega, ← List.drop_drop, wd_drop, BitVec.xor_comm]
    exact hA p hp l
  refine ⟨⟨r', accumulate s.X (Avx512.rounds6 (ops 8) (remap A))⟩, ?_, hr', fun p hp => ?_⟩
  · unfold compressBody
    simp only [Option.bind_eq_bind]
    rw [e1, Option.bind_some]
  · show sum8 ((accumulate _ _).get p) = _
    rw [accumulate_get _ _ _ hp, sum8_xor]
    congr 1
    unfold sum8 inWord8
    have e := fun l => hst l p hp
    rw [e 0, e 1, e 2, e 3, e 4, e 5, e 6, e 7]
    rfl

section

variable {C : Farfalle.Cfg} (hw : C.width = 200) (hp : C.permute = F6) (hrc : C.rollc = Kravatte.rollc)

include hw hp hrc in
theorem eat_succ (k x d : Bytes) (t : Nat) : (Farfalle.eat C (t + 1) (k, x) d).2 =
    Bytes.xor (Farfalle.eat C t (k, x) d).2 (F6 (Bytes.xor (kAt k t) ((d.drop (200 * t)).take 200))) := by
  have hr : Farfalle.rc C = rc1 := by funext k; rw [Farfalle.rc, hrc]; rfl
  have h1 := Farfalle.eat_fst (C := C) t (k, x) d
  rw [hr] at h1
  rw [Farfalle.eat_add]
  generalize Farfalle.eat C t (k, x) d = st at h1
  obtain ⟨k', x'⟩ := st
  obtain rfl : k' = kAt k t := h1
  simp only [Farfalle.eat, hp, hw]
  simp only [Nat.mul_comm t 200]

include hw hp hrc in
theorem length_eat (k x d : Bytes) (hx : x.length = 200) (t : Nat) : (Farfalle.eat C t (k, x) d).2.length = 200 := by
  induction t with
  | zero => exact hx
  | succ t ih => rw [eat_succ hw hp hrc, Bytes.length_xor, ih, length_F6]; rfl

include hw hp hrc in
theorem wd_eat_succ (k x d : Bytes) (hx : x.length = 200) (t : Nat) {p : Nat} (hp25 : p < 25) :
    wd (Farfalle.eat C (t + 1) (k, x) d).2 p = wd (Farfalle.eat C t (k, x) d).2 p ^^^ inWord k d t p := by
  rw [eat_succ hw hp hrc, wd_xor (length_eat hw hp hrc k x d hx t) (length_F6 _) hp25]; rfl

include hw hp hrc in
theorem wd_eat_eight (k x d : Bytes) (hx : x.length = 200) (t : Nat) {p : Nat} (hp25 : p < 25) :
    wd (Farfalle.eat C (t + 8) (k, x) d).2 p = wd (Farfalle.eat C t (k, x) d).2 p ^^^ inWord8 k d t p := by
  have e := fun t => wd_eat_succ hw hp hrc k x d hx t hp25
  rw [e (t + 7), e (t + 6), e (t + 5), e (t + 4), e (t + 3), e (t + 2), e (t + 1), e t]
  unfold inWord8
  simp only [BitVec.xor_assoc]

/-- `_mm512_mask_storeu_epi64`. -/
theorem maskStore_ok (buf : Bytes) (i mask : Nat) (v : Vec 8) (h : ∀ j < 8, mask.testBit j = true → 8 * (i + j) + 8 ≤ buf.length) :
    ∃ b, maskStore buf (8 * i) mask v = some b ∧ b.length = buf.length ∧
      ∀ p, wd b p = if i ≤ p ∧ p < i + 8 ∧ mask.testBit (p - i) = true then v.at (p - i) else wd buf p := by
  have key : ∀ n ≤ 8, ∃ b, (List.range n).foldlM (fun buf j => if mask.testBit j then storeWord buf (8 * i + 8 * j) (v.at j) else some buf) buf =
      some b ∧ b.length = buf.length ∧ ∀ p, wd b p = if i ≤ p ∧ p < i + n ∧ mask.testBit (p - i) = true then v.at (p - i) else wd buf p := by
    intro n
    induction n with
    | zero => exact fun _ => ⟨buf, rfl, rfl, fun p => by rw [if_neg (by omega)]⟩
    | succ n ih =>
      intro hn
      obtain ⟨b, e, hl, hb⟩ := ih (by omega)
      rw [List.range_succ, List.foldlM_append, e]
      simp only [Option.bind_eq_bind, Option.bind_some, List.foldlM_cons, List.foldlM_nil]
      by_cases hm : mask.testBit n = true
      · rw [if_pos hm, ← Nat.mul_add]
        obtain ⟨b', e', hs⟩ := storeWord_ok b (i + n) (v.at n) (by rw [hl]; exact h n (by omega) hm)
        refine ⟨b', by rw [e']; rfl, hs.len.trans hl, fun p => ?_⟩
        rw [hs.wd, hb]
        by_cases hp : p = i + n
        · subst hp
          rw [if_pos (by omega), Nat.add_sub_cancel_left, if_pos ⟨by omega, by omega, hm⟩]
        · rw [if_neg (by omega)]
          by_cases hc : i ≤ p ∧ p < i + n ∧ mask.testBit (p - i) = true
          · rw [if_pos hc, if_pos ⟨hc.1, by omega, hc.2.2⟩]
          · rw [if_neg hc, if_neg (fun h => hc ⟨h.1, by omega, h.2.2⟩)]
      · rw [if_neg hm]
        refine ⟨b, rfl, hl, fun p => ?_⟩
        rw [hb]
        by_cases hc : i ≤ p ∧ p < i + n ∧ mask.testBit (p - i) = true
        · rw [if_pos hc, if_pos ⟨hc.1, by omega, hc.2.2⟩]
        · rw [if_neg hc, if_neg]
          rintro ⟨h1, h2, h3⟩
          refine hc ⟨h1, ?_, h3⟩
          rcases Nat.lt_or_ge p (i + n) with h4 | h4
          · exact h4
          · rw [show p - i = n by omega] at h3
            exact absurd h3 hm
  exact key 8 (Nat.le_refl _)

theorem sizeT_le (i386 : Bool) : 2 ^ 32 ≤ sizeT i386 := by cases i386 <;> decide

include hw hp hrc in
/-- `KeccakP1600times8_KravatteCompress` absorbs the blocks one after the other, except for the last word on i386. -/
theorem kravatteCompress_gen (i386 : Bool) (fuel : Nat) (x k input : Bytes) (len : Nat)
    (hk : k.length = 200) (hx : x.length = 200) (h8 : 1600 ≤ len) (hl : len ≤ input.length) (h64 : len < sizeT i386) (hf : len ≤ fuel) :
    ∃ x' v, kravatteCompress i386 fuel x k input len = some ((Farfalle.eat C (len / 1600 * 8) (k, x) input).1, x', len / 1600 * 1600) ∧
      x'.length = 200 ∧ (∀ p < 24, wd x' p = wd (Farfalle.eat C (len / 1600 * 8) (k, x) input).2 p) ∧
      wd x' 24 = wd x 24 ^^^ horizontalLast i386 v ∧ wd x 24 ^^^ sum8 v = wd (Farfalle.eat C (len / 1600 * 8) (k, x) input).2 24 := by
  obtain ⟨r, e0, hr0⟩ := rollInit_ok hk
  obtain ⟨s, e, hs1, hs2⟩ := doWhile_inv (step := fun i s => compressBody k (input.drop (8 * (i * (8 * 25)))) s)
    (sizeT := sizeT i386) (fun i s => RollAt k (8 * i) s.r ∧
      ∀ p < 25, wd x p ^^^ sum8 (s.X.get p) = wd (Farfalle.eat C (8 * i) (k, x) input).2 p) fuel (len / 1600) 0
    ⟨r, zeroX⟩ (by omega) (by omega) (by omega)
    (fun i s _ hi hI => by
      obtain ⟨h1, h2⟩ := hI
      obtain ⟨s', g1, g2, g3⟩ := compressBody_ok hk (d := input) (8 * i) (by omega) s h1
      refine ⟨s', ?_, g2, fun p hp25 => ?_⟩
      · rw [← g1]; congr 2; omega
      · rw [g3 p hp25, ← BitVec.xor_assoc, h2 p hp25, show 8 * (i + 1) = 8 * i + 8 by omega, wd_eat_eight hw hp hrc k x input hx _ hp25])
    ⟨hr0, fun p hp25 => by
      rw [zeroX_get p hp25]
      show wd x p ^^^ sum8 (fun _ => 0) = wd x p
      exact BitVec.xor_zero⟩
  rw [Nat.zero_add] at e hs1 hs2
  obtain ⟨x', e1, lx, hx1, hx2⟩ := compressStore_ok i386 s.X hx
  obtain ⟨k', e2, lk, hk'⟩ := maskStore_ok k 20 0x1F s.r.lo (by
    intro j hj hm
    have : j < 5 := by
      by_contra h
      have : j = 5 ∨ j = 6 ∨ j = 7 := by omega
      rcases this with rfl | rfl | rfl <;> exact absurd hm (by decide)
    omega)
  have hk2 : k' = kAt k (8 * (len / 1600)) := by
    refine words_ext (lk.trans hk) (length_kAt hk _) fun p hp => ?_
    rw [hk']
    by_cases h20 : p < 20
    · rw [if_neg (by omega), kAt_lo hk _ h20]
    · obtain ⟨j, rfl⟩ : ∃ j, p = 20 + j := ⟨p - 20, by omega⟩
      have hj : j < 5 := by omega
      rw [Nat.add_sub_cancel_left, if_pos ⟨by omega, by omega, by clear hp h20; interval_cases j <;> decide⟩, kAt_hi hk _ j hj, Vec.at,
        dif_pos (by omega), hs1.lo]
  have hr : Farfalle.rc C = rc1 := by funext k; rw [Farfalle.rc, hrc]; rfl
  rw [Nat.mul_comm (len / 1600) 8]
  refine ⟨x', s.X.su, ?_, lx, fun p hp => by rw [hx1 p hp, hs2 p (by omega)], hx2, hs2 24 (by omega)⟩
  unfold kravatteCompress
  simp only [Option.bind_eq_bind]
  rw [e0, Option.bind_some, e, Option.bind_some]
  simp only
  rw [e1, Option.bind_some, e2, Option.bind_some, Farfalle.eat_fst, hr, hk2]
  refine congrArg some (Prod.ext rfl (Prod.ext rfl ?_))
  show 8 * (len / 1600 * (8 * 25)) = len / 1600 * 1600
  omega

include hw hp hrc in
theorem kravatteCompress_ok (fuel : Nat) (x k input : Bytes) (len : Nat)
    (hk : k.length = 200) (hx : x.length = 200) (h8 : 1600 ≤ len) (hl : len ≤ input.length) (h64 : len < 2 ^ 64) (hf : len ≤ fuel) :
    kravatteCompress false fuel x k input len = some ((Farfalle.eat C (len / 1600 * 8) (k, x) input).1,
      (Farfalle.eat C (len / 1600 * 8) (k, x) input).2, len / 1600 * 1600) := by
  obtain ⟨x', v, e, lx, h1, h2, h3⟩ := kravatteCompress_gen hw hp hrc false fuel x k input len hk hx h8 hl h64 hf
  rw [e]
  have : x' = (Farfalle.eat C (len / 1600 * 8) (k, x) input).2 := by
    refine words_ext lx (length_eat hw hp hrc k x input hx _) fun p hp25 => ?_
    by_cases h : p < 24
    · exact h1 p h
    · obtain rfl : p = 24 := by omega
      rw [h2, horizontalLast_ok, h3]
  rw [this]

end

/-! ### Expansion -/

theorem rolle_ok (f : Nat → Lane) (hf : ∀ n, f (n + 10) = rol64 (f n) 7 ^^^ rol64 (f (n + 1)) 18 ^^^ (f (n + 2) &&& (f (n + 1) >>> 1)))
    (r : Roll2) (hlo : ∀ l : Fin 8, r.lo l = f l.val) (hhi : ∀ l : Fin 8, r.hi l = f (l.val + 2)) (l : Fin 8) :
    (rolle r).1.a l = f (l.val + 0) ∧ (rolle r).1.e l = f (l.val + 1) ∧ (rolle r).1.i l = f (l.val + 2) ∧ (rolle r).1.o l = f (l.val + 3) ∧
    (rolle r).1.u l = f (l.val + 4) ∧ (rolle r).2.1.a l = f (l.val + 5) ∧ (rolle r).2.1.e l = f (l.val + 6) ∧ (rolle r).2.1.i l = f (l.val + 7) ∧
    (rolle r).2.1.o l = f (l.val + 8) ∧ (rolle r).2.1.u l = f (l.val + 9) ∧ (rolle r).2.2.lo l = f (l.val + 8) ∧
    (rolle r).2.2.hi l = f (l.val + 10) := by
  have he : ∀ l : Fin 8, (rolle r).1.e l = f (l.val + 1) := by
    intro l
    fin_cases l
    exacts [hlo 1, hlo 2, hlo 3, hlo 4, hlo 5, hlo 6, hlo 7, hhi 6]
  have hn : ∀ l : Fin 8, (rolle r).2.2.hi l = f (l.val + 10) := by
    intro l
    refine (congrFun (Avx512.ternary_xor (roti r.lo 7) (roti (rolle r).1.e 18) (and r.hi (srli (rolle r).1.e 1))) l).trans ?_
    rw [hf, ← he l, ← hlo l, ← hhi l]; rfl
  have ho : ∀ l : Fin 8, (rolle r).2.1.o l = f (l.val + 8) := by
    intro l
    fin_cases l
    exacts [hhi 6, hhi 7, hn 0, hn 1, hn 2, hn 3, hn 4, hn 5]
  refine ⟨hlo l, he l, hhi l, ?_, ?_, ?_, ?_, ?_, ho l, ?_, ho l, hn l⟩
  · fin_cases l
    exacts [hhi 1, hhi 2, hhi 3, hhi 4, hhi 5, hhi 6, hhi 7, hn 0]
  · fin_cases l
    exacts [hhi 2, hhi 3, hhi 4, hhi 5, hhi 6, hhi 7, hn 0, hn 1]
  · fin_cases l
    exacts [hhi 3, hhi 4, hhi 5, hhi 6, hhi 7, hn 0, hn 1, hn 2]
  · fin_cases l
    exacts [hhi 4, hhi 5, hhi 6, hhi 7, hn 0, hn 1, hn 2, hn 3]
  · fin_cases l
    exacts [hhi 5, hhi 6, hhi 7, hn 0, hn 1, hn 2, hn 3, hn 4]
  · fin_cases l
    exacts [hhi 7, hn 0, hn 1, hn 2, hn 3, hn 4, hn 5, hn 6]

/-- The registers hold the words of the accumulator rolled `t` times. -/
structure RollEAt (y : Bytes) (t : Nat) (r : Roll2) : Prop where
  lo : ∀ l : Fin 8, r.lo l = eseq y (t + l.val)
  hi : ∀ l : Fin 8, r.hi l = eseq y (t + (l.val + 2))

theorem expandLoad_ok {y : Bytes} (hy : y.length = 200) (t : Nat) (r : Roll2) (hr : RollEAt y t r) :
    ∃ A r', expandLoad y r = some (A, r') ∧ RollEAt y (t + 8) r' ∧ ∀ p < 25, ∀ l : Fin 8, A.get p l = wd (yAt y (t + l.val)) p := by
  have hroll := rolle_ok (fun n => eseq y (t + n)) (fun n => eseq_step hy (t + n)) r hr.lo hr.hi
  have ha : ∀ i < 25, constWord y i = some (set1 (wd y i)) := fun i hi => by
    unfold constWord
    simp only [Option.bind_eq_bind]
    rw [loadWord_ok _ _ (by omega), Option.bind_some]
  unfold expandLoad
  simp only [Option.bind_eq_bind]
  rw [row_ok ha 0 (by omega), Option.bind_some, row_ok ha 5 (by omega), Option.bind_some, row_ok ha 10 (by omega), Option.bind_some]
  refine ⟨_, _, rfl, ⟨fun l => ?_, fun l => ?_⟩, ?_⟩
  · rw [(hroll l).2.2.2.2.2.2.2.2.2.2.1]; congr 1; omega
  · rw [(hroll l).2.2.2.2.2.2.2.2.2.2.2]; congr 1; omega
  · intro p hp l
    by_cases h15 : p < 15
    · rw [yAt_lo hy _ h15]
      interval_cases p <;> rfl
    · obtain ⟨j, rfl⟩ : ∃ j, p = 15 + j := ⟨p - 15, by omega⟩
      have hj : j < 10 := by omega
      rw [yAt_hi hy _ j hj, Nat.add_assoc]
      obtain ⟨g0, g1, g2, g3, g4, g5, g6, g7, g8, g9, -⟩ := hroll l
      clear hp h15
      interval_cases j
      exacts [g0, g1, g2, g3, g4, g5, g6, g7, g8, g9]

theorem scatter8_ok {out : Bytes} (r p : Nat) (hp : p < 25) (h : 200 * (r + 8) ≤ out.length) (v : Vec 8) {f : Nat → Nat → Lane}
    (hf : ∀ l : Fin 8, v l = f (r + l.val) p) :
    ∃ out', scatter out (200 * r + 8 * p) oGatherScatter v = some out' ∧ OUpd 25 out out' r (r + 8) p (p + 1) f := by
  have key : ∀ n ≤ 8, ∃ out', (List.range n).foldlM (fun buf i => if (oGatherScatter i).msb then none else
      storeWord buf (200 * r + 8 * p + 8 * (oGatherScatter i).toNat) (v.at i)) out = some out' ∧ OUpd 25 out out' r (r + n) p (p + 1) f := by
    intro n
    induction n with
    | zero => exact fun _ => ⟨out, rfl, ⟨rfl, fun q => by rw [if_neg (by omega)]⟩⟩
    | succ n ih =>
      intro hn
      obtain ⟨b, e, u⟩ := ih (by omega)
      have hidx := Avx512.toNat_idx (x := n * 25) (by omega)
      have hg : oGatherScatter n = BitVec.ofNat 32 (n * 25) := by
        rw [gs_ok n (by omega), Nat.mod_eq_of_lt (by omega), Nat.div_eq_of_lt (by omega), Nat.add_zero]
      obtain ⟨b', e', u'⟩ := storeWord_at (out := b) (q := 200 * r + 8 * p + 8 * (n * 25)) (r + n) p (by omega) (by rw [u.len]; omega) hp
        (w := v.at n) (f := f) (by rw [Vec.at, dif_pos (by omega)]; exact hf ⟨n, by omega⟩)
      rw [List.range_succ, List.foldlM_append, e]
      simp only [Option.bind_eq_bind, Option.bind_some, List.foldlM_cons, List.foldlM_nil]
      rw [hg, hidx.1, hidx.2, if_neg (by simp), e']
      exact ⟨b', rfl, u.rows u' (by omega) (by omega)⟩
  exact key 8 (Nat.le_refl _)

section

variable {kRoll out : Bytes} (hk : kRoll.length = 200) (r : Nat) (hout : 200 * (r + 8) ≤ out.length) (A : V (Vec 8)) {f : Nat → Nat → Lane}
  (hf : ∀ p < 25, ∀ l : Fin 8, A.get p l ^^^ wd kRoll p = f (r + l.val) p)

include hk hout hf

theorem addKeyStore_ok (i : Nat) (hi : i < 25) {m : Bytes} (hu : OUpd 25 out m r (r + 8) 0 i f) :
    ∃ m', addKeyStore kRoll (200 * r) (A.get i) i m = some m' ∧ OUpd 25 out m' r (r + 8) 0 (i + 1) f := by
  obtain ⟨m', e, u⟩ := scatter8_ok r i hi (by rw [hu.len]; exact hout) (xor (A.get i) (set1 (wd kRoll i))) (f := f) (fun l => hf i hi l)
  refine ⟨m', ?_, hu.cols u (by omega) (by omega)⟩
  unfold addKeyStore
  simp only [Option.bind_eq_bind]
  rw [loadWord_ok _ _ (by omega), Option.bind_some, e]

theorem expandStore_ok : ∃ out', expandStore kRoll (200 * r) A out = some out' ∧ OUpd 25 out out' r (r + 8) 0 25 f := by
  have g := fun i hi m hu => addKeyStore_ok hk r hout A hf i hi (m := m) hu
  obtain ⟨m0, e0, u0⟩ := g 0 (by omega) _ (OUpd.refl _ _ _ _ _)
  obtain ⟨m1, e1, u1⟩ := g 1 (by omega) _ u0
  obtain ⟨m2, e2, u2⟩ := g 2 (by omega) _ u1
  obtain ⟨m3, e3, u3⟩ := g 3 (by omega) _ u2
  obtain ⟨m4, e4, u4⟩ := g 4 (by omega) _ u3
  obtain ⟨m5, e5, u5⟩ := g 5 (by omega) _ u4
  obtain ⟨m6, e6, u6⟩ := g 6 (by omega) _ u5
  obtain ⟨m7, e7, u7⟩ := g 7 (by omega) _ u6
  obtain ⟨m8, e8, u8⟩ := g 8 (by omega) _ u7
  obtain ⟨m9, e9, u9⟩ := g 9 (by omega) _ u8
  obtain ⟨m10, e10, u10⟩ := g 10 (by omega) _ u9
  obtain ⟨m11, e11, u11⟩ := g 11 (by omega) _ u10
  obtain ⟨m12, e12, u12⟩ := g 12 (by omega) _ u11
  obtain ⟨m13, e13, u13⟩ := g 13 (by omega) _ u12
  obtain ⟨m14, e14, u14⟩ := g 14 (by omega) _ u13
  obtain ⟨m15, e15, u15⟩ := g 15 (by omega) _ u14
  obtain ⟨m16, e16, u16⟩ := g 16 (by omega) _ u15
  obtain ⟨m17, e17, u17⟩ := g 17 (by omega) _ u16
  obtain ⟨m18, e18, u18⟩ := g 18 (by omega) _ u17
  obtain ⟨m19, e19, u19⟩ := g 19 (by omega) _ u18
  obtain ⟨m20, e20, u20⟩ := g 20 (by omega) _ u19
  obtain ⟨m21, e21, u21⟩ := g 21 (by omega) _ u20
  obtain ⟨m22, e22, u22⟩ := g 22 (by omega) _ u21
  obtain ⟨m23, e23, u23⟩ := g 23 (by omega) _ u22
  obtain ⟨m24, e24, u24⟩ := g 24 (by omega) _ u23
  simp only [V.get] at e0 e1 e2 e3 e4 e5 e6 e7 e8 e9 e10 e11 e12 e13 e14 e15 e16 e17 e18 e19 e20 e21 e22 e23 e24
  refine ⟨m24, ?_, u24⟩
  unfold expandStore
  simp only [Option.bind_eq_bind]
  rw [e0, Option.bind_some, e1, Option.bind_some, e2, Option.bind_some, e3, Option.bind_some, e4, Option.bind_some, e5, Option.bind_some,
    e6, Option.bind_some, e7, Option.bind_some, e8, Option.bind_some, e9, Option.bind_some, e10, Option.bind_some, e11, Option.bind_some,
    e12, Option.bind_some, e13, Option.bind_some, e14, Option.bind_some, e15, Option.bind_some, e16, Option.bind_some, e17, Option.bind_some,
    e18, Option.bind_some, e19, Option.bind_some, e20, Option.bind_some, e21, Option.bind_some, e22, Option.bind_some, e23, Option.bind_some, e24]

end

theorem expandBody_ok {kRoll : Bytes} (hk : kRoll.length = 200) (y : Bytes) (hy : y.length = 200)
    (t : Nat) (s : ESt) (hr : RollEAt y t s.r) (hout : 200 * (t + 8) ≤ s.out.length) :
    ∃ s', expandBody y kRoll (200 * t) s = some s' ∧ RollEAt y (t + 8) s'.r ∧ OUpd 25 s.out s'.out t (t + 8) 0 25 (outWord kRoll y) := by
  obtain ⟨A, r', e1, hr', hA⟩ := expandLoad_ok hy t s.r hr
  obtain ⟨o, e2, u⟩ := expandStore_ok hk t hout (Avx512.rounds6 (ops 8) (remap A)) (f := outWord kRoll y) (fun p hp l => by
    rw [outWord, rounds6_get (length_yAt hy (t + l.val)) (fun p hp => hA p hp l) p hp])
  refine ⟨⟨r', o⟩, ?_, hr', u⟩
  unfold expandBody
  simp only [Option.bind_eq_bind]
  rw [e1, Option.bind_some, e2, Option.bind_some]

section

variable {C : Farfalle.Cfg} (hp : C.permute = F6) (hre : C.rolle = Kravatte.rolle)

include hp hre in
/-- `KeccakP1600times8_KravatteExpand` writes the blocks one after the other. -/
theorem kravatteExpand_ok (i386 : Bool) (fuel : Nat) (y kRoll output : Bytes) (len : Nat)
    (hk : kRoll.length = 200) (hy : y.length = 200) (h8 : 1600 ≤ len) (hl : len ≤ output.length) (h64 : len < sizeT i386) (hf : len ≤ fuel) :
    kravatteExpand i386 fuel y kRoll output len = some (Nat.repeat (Farfalle.re C) (len / 1600 * 8) y,
      Farfalle.gen C kRoll (len / 1600 * 8) y ++ output.drop (len / 1600 * 1600), len / 1600 * 1600) := by
  have hw : ∀ j < 10, wd y (15 + j) = eseq y j := fun j hj => (yAt_hi hy 0 j hj).trans (by rw [Nat.zero_add])
  obtain ⟨s, e, hs1, hs2⟩ := doWhile_inv (step := fun i s => expandBody y kRoll (8 * (i * (8 * 25))) s)
    (sizeT := sizeT i386) (fun i s => RollEAt y (8 * i) s.r ∧ OUpd 25 output s.out 0 (8 * i) 0 25 (outWord kRoll y)) fuel (len / 1600) 0
    ⟨⟨fun l => wd y (15 + l.val), fun l => wd y (17 + l.val)⟩, output⟩ (by omega) (by omega) (by omega)
    (fun i s _ hi hI => by
      obtain ⟨h1, h2⟩ := hI
      obtain ⟨s', g1, g2, g3⟩ := expandBody_ok hk y hy (8 * i) s h1 (by rw [h2.len]; omega)
      refine ⟨s', ?_, g2, h2.rows g3 (by omega) (by omega)⟩
      rw [← g1]; congr 1; omega)
    ⟨⟨fun l => by
      show wd y (15 + l.val) = _
      rw [hw _ (by omega), Nat.mul_zero, Nat.zero_add], fun l => by
      show wd y (17 + l.val) = _
      rw [show 17 + l.val = 15 + (l.val + 2) by omega, hw _ (by omega), Nat.mul_zero, Nat.zero_add]⟩,
      ⟨rfl, fun q => by rw [if_neg (by omega)]⟩⟩
  rw [Nat.zero_add] at e hs1 hs2
  have hr : Farfalle.re C = re1 := by funext k; rw [Farfalle.re, hre]; rfl
  have hg := Times4.length_gen6 hp hk (len / 1600 * 8) y
  have ho : s.out = Farfalle.gen C kRoll (len / 1600 * 8) y ++ output.drop (len / 1600 * 1600) := by
    apply bytes_ext
    · rw [hs2.len, List.length_append, hg, List.length_drop]; omega
    · intro q _
      rw [hs2.byte]
      by_cases hq : q < 200 * (len / 1600 * 8)
      · rw [if_pos (by omega), List.getD_append _ _ _ _ (by omega), Times4.getD_gen hp hre hk _ _ _ hy hq]
      · rw [if_neg (by omega), List.getD_append_right _ _ _ _ (by omega), hg, List.getD_eq_getElem?_getD, List.getD_eq_getElem?_getD,
          List.getElem?_drop]
        congr 2; omega
  obtain ⟨y1, e1, l1, hy1⟩ := maskStore_ok y 15 0xFF s.r.lo (fun j hj _ => by omega)
  obtain ⟨y2, e2, l2, hy2⟩ := maskStore_ok y1 17 0xC0 s.r.hi (fun j hj _ => by omega)
  have hyy : y2 = yAt y (8 * (len / 1600)) := by
    refine words_ext (by rw [l2, l1, hy]) (length_yAt hy _) fun p hp => ?_
    rw [hy2, hy1]
    by_cases h15 : p < 15
    · rw [if_neg (by omega), if_neg (by omega), yAt_lo hy _ h15]
    · obtain ⟨j, rfl⟩ : ∃ j, p = 15 + j := ⟨p - 15, by omega⟩
      have hj : j < 10 := by omega
      rw [yAt_hi hy _ j hj]
      have hlo : ∀ j (h : j < 8), s.r.lo.at j = eseq y (8 * (len / 1600) + j) := fun j h => by rw [Vec.at, dif_pos h, hs1.lo]
      have hhi : ∀ j (h : j < 8), s.r.hi.at j = eseq y (8 * (len / 1600) + (j + 2)) := fun j h => by rw [Vec.at, dif_pos h, hs1.hi]
      clear hp h15
      interval_cases j
      exacts [hlo 0 (by omega), hlo 1 (by omega), hlo 2 (by omega), hlo 3 (by omega), hlo 4 (by omega), hlo 5 (by omega), hlo 6 (by omega),
        hlo 7 (by omega), hhi 6 (by omega), hhi 7 (by omega)]
  unfold kravatteExpand
  simp only [Option.bind_eq_bind]
  rw [loadVec_ok 8 y 15 (by omega), Option.bind_some, loadVec_ok 8 y 17 (by omega), Option.bind_some, e, Option.bind_some]
  simp only
  rw [e1, Option.bind_some, e2, Option.bind_some, hyy, ho, hr, Nat.mul_comm 8 (len / 1600)]
  refine congrArg some (Prod.ext rfl (Prod.ext rfl ?_))
  show 8 * (len / 1600 * (8 * 25)) = len / 1600 * 1600
  omega

end

end Times8
