import Verif.Proofs.XoodooTimes4NeonXoofff

/-!
The fast loops of Xoofff of the NEON implementation of four instances of Xoodoo.
-/

namespace XoodooTimes4Neon

open Xoodoo (Lane Lanes byteOf)
open Simd32 hiding pos
open XoodooArm (sub32 sub32_eq)
open XoofffSimd (P6 pos sq rc1 re1 shift_rc1 shift_re1 inc blk xorTo outWord wd_P6 wd_xor wd_take words_ext eat_words getD_gen length_gen6)

theorem fastLoop_inv {σ : Type} {body : σ → Option σ} (I : Nat → σ → Prop) (n : Nat)
    (hb : ∀ i s, i < n → I i s → ∃ s', body s = some s' ∧ I (i + 1) s') :
    ∀ (fuel i r3 : Nat) (s : σ), i + 1 + r3 / 192 = n → r3 < fuel → I i s → ∃ s', fastLoop body fuel s r3 = some s' ∧ I n s' := by
  intro fuel
  induction fuel with
  | zero => intro i r3 s _ h; omega
  | succ fuel ih =>
    intro i r3 s hn hf hI
    obtain ⟨s', e, hI'⟩ := hb i s (by omega) hI
    rw [fastLoop, e, Option.bind_eq_bind, Option.bind_some]
    by_cases h : r3 < 192
    · rw [if_pos h]
      exact ⟨s', rfl, by rw [show n = i + 1 by omega]; exact hI'⟩
    · rw [if_neg h]
      exact ih (i + 1) (r3 - 192) s' (by omega) (by omega) hI'

/-! ### Compression -/

theorem focusC_ok {base : Nat} (hb : base % 4 = 0) (input : Bytes) (i : Nat) (h : 4 * i + 192 ≤ input.length) (g : Regs) :
    ∃ g', focusC base input (4 * i) g = some g' ∧ ∀ j < 12, ∀ l : Fin 4, g'.src j l = wd input (i + 4 * j + l.val) := by
  let r : Nat → Vec 4 := fun j l => wd input (i + 4 * j + l.val)
  refine ⟨⟨g.q0, g.q1, g.q2, g.q3, r 0, r 1, r 2, r 3, r 4, r 5, r 6, r 7, r 8, r 9, r 10, r 11⟩, ?_, fun j hj l => ?_⟩
  · unfold focusC
    rw [if_pos (by omega), show 4 * i + 48 = 4 * (i + 12) by omega, show 4 * i + 96 = 4 * (i + 24) by omega, show 4 * i + 144 = 4 * (i + 36) by omega,
      vldm3_ok input i hb (by omega), vldm3_ok input (i + 12) hb (by omega), vldm3_ok input (i + 24) hb (by omega),
      vldm3_ok input (i + 36) hb (by omega)]
    rfl
  · interval_cases j <;> rfl

theorem accumulate_ok (g : Regs) {x : Bytes} (hx : x.length = 48) : ∃ x', accumulate g x = some x' ∧ x'.length = 48 ∧
    ∀ p : Fin 12, wd x' p.val = wd x p.val ^^^ (g.row p.val 0 ^^^ g.row p.val 2) ^^^ (g.row p.val 1 ^^^ g.row p.val 3) := by
  have e := vldm3_ok (base := 0) x 0 rfl (Nat.le_of_eq hx.symm)
  rw [Nat.mul_zero] at e
  let u : Vec 4 := fold4 (fun l => wd x (0 + l.val)) g.q0 g.q1 g.q2 g.q3
  let v : Vec 4 := fold4 (fun l => wd x (0 + 4 + l.val)) g.q4 g.q5 g.q6 g.q7
  let w : Vec 4 := fold4 (fun l => wd x (0 + 8 + l.val)) g.q8 g.q9 g.q10 g.q11
  obtain ⟨x', e1, e2, e3⟩ := vstm3_ok hx u v w
  refine ⟨x', ?_, e2, fun p => ?_⟩
  · unfold accumulate
    rw [e]
    exact e1
  · rw [e3 p.val p.isLt]
    fin_cases p <;> rfl

/-- What holds after `i` iterations of the loop of the compression. -/
structure CInv (k x input : Bytes) (i : Nat) (s : Cs) : Prop where
  mask : AtSeq (sq rc1 k) (4 * i) s.k
  len : s.x.length = 48
  acc : ∀ p < 12, wd s.x p = wd x p ^^^ xorTo (4 * i) fun j => inc k input j p
  r2 : s.r2 = 192 * i
  r10 : s.r10 = 192 * i

theorem compressBody_ok {base : Nat} (hb : base % 4 = 0) {k x input : Bytes} (hk : k.length = 48) (i : Nat) (hi : 192 * (i + 1) ≤ input.length) (s : Cs)
    (h : CInv k x input i s) : ∃ s', compressBody base input s = some s' ∧ CInv k x input (i + 1) s' := by
  have hs := fun t => shift_rc1.step (k := k) t
  obtain ⟨g1, e1, f1⟩ := focusC_ok hb input (48 * i) (by omega) s.g
  obtain ⟨g2, k2, e2, f2, f3⟩ := rollZipC_ok hs h.mask g1
  obtain ⟨x3, e3, f4, f5⟩ := accumulate_ok (sixStar g2) h.len
  refine ⟨⟨sixStar g2, k2, x3, s.r2 + 192, s.r10 + 192⟩, ?_, ?_⟩
  · unfold compressBody
    rw [h.r2, show 192 * i = 4 * (48 * i) by omega, e1]
    simp only [Option.bind_eq_bind, Option.bind_some]
    rw [e2, Option.bind_some]
    dsimp only
    rw [e3, Option.bind_some]
  · have hrow : ∀ (p : Fin 12) (l : Fin 4), (sixStar g2).row p.val l = inc k input (4 * i + l.val) p.val := fun p l => by
      rw [sixStar_row, inc, wd_P6]
      congr 1
      funext q
      have := l.isLt
      have := q.isLt
      have hbl : (blk input (4 * i + l.val)).length = 48 := by rw [blk, List.length_take, List.length_drop]; omega
      rw [f3, wd_xor (shift_rc1.length hk _) hbl q.isLt, shift_rc1.word _ _ q.isLt, f1 _ (by omega)]
      congr 1
      rw [blk, wd_take (by omega), show 48 * (4 * i + l.val) = 4 * (12 * (4 * i + l.val)) by omega, wd_drop]
      congr 1
      dsimp only
      omega
    refine ⟨f2, f4, fun p hp => ?_, by dsimp only; rw [h.r2]; omega, by dsimp only; rw [h.r10]; omega⟩
    dsimp only
    rw [f5 ⟨p, hp⟩, hrow, hrow, hrow, hrow, h.acc p hp]
    show _ = _ ^^^ ((((xorTo (4 * i) fun j => inc k input j p) ^^^ inc k input (4 * i) p) ^^^ inc k input (4 * i + 1) p) ^^^ inc k input (4 * i + 2) p ^^^
      inc k input (4 * i + 3) p)
    show (_ ^^^ (inc k input (4 * i) p ^^^ inc k input (4 * i + 2) p)) ^^^ (inc k input (4 * i + 1) p ^^^ inc k input (4 * i + 3) p) = _
    ac_rfl

section

variable {C : Farfalle.Cfg} (hw : C.width = 48) (hp : C.permute = P6) (hrc : C.rollc = Xoofff.rollc)
include hw hp hrc

theorem compress_ok (g : Regs) {base : Nat} (hb : base % 4 = 0) {k x input : Bytes} (hk : k.length = 48) (hx : x.length = 48) (len : Nat) (h1 : 192 ≤ len)
    (hl : len ≤ input.length) (h32 : len < 2 ^ 32) : compressFastLoop g base k x input len =
      some ((Farfalle.eat C (len / 192 * 4) (k, x) input).1, (Farfalle.eat C (len / 192 * 4) (k, x) input).2, len / 192 * 192) := by
  obtain ⟨s, e, hI⟩ := fastLoop_inv (CInv k x input) (len / 192)
    (fun i s hi hI => compressBody_ok hb hk i (by omega) s hI) (2 ^ 32) 0 (len - 192) ⟨g, k, x, 0, 0⟩ (by omega) (by omega)
    ⟨⟨hk, fun p hp => by
      have := shift_rc1.word (k := k) 0 p hp
      exact this⟩, hx, fun p _ => BitVec.xor_zero.symm, rfl, rfl⟩
  obtain ⟨w1, w2⟩ := eat_words hw hp hrc hx (k := k) input (len / 192 * 4)
  have hr : Farfalle.rc C = rc1 := by funext k; rw [Farfalle.rc, hrc]; rfl
  have ek : s.k = (Farfalle.eat C (len / 192 * 4) (k, x) input).1 := by
    rw [Farfalle.eat_fst, hr]
    refine words_ext hI.mask.1 (shift_rc1.length hk _) fun p hp => ?_
    rw [hI.mask.2 p hp, shift_rc1.word _ _ hp, Nat.mul_comm 4]
  have ex : s.x = (Farfalle.eat C (len / 192 * 4) (k, x) input).2 := by
    refine words_ext hI.len w1 fun p hp => ?_
    rw [hI.acc p hp, w2 p hp, Nat.mul_comm 4]
  unfold compressFastLoop
  rw [if_pos hb, sub32_eq h1 h32, e, Option.bind_eq_bind, Option.bind_some, hI.r10, ek, ex, Nat.mul_comm 192]

end

/-! ### Expansion -/

theorem put {base : Nat} (hb : base % 4 = 0) {out : Bytes} {h : Nat → Nat → Lane} (r c a : Nat) (ha : a = 48 * r + 4 * c) (v : Vec 4) (hc : c + 4 ≤ 12)
    (hl : 48 * (r + 1) ≤ out.length) (hv : ∀ j < 4, v.at j = h r (c + j)) :
    ∃ out', vstm base out a v = some out' ∧ out'.length = out.length ∧ OUpd 12 out out' r (r + 1) c (c + 4) h := by
  obtain ⟨out', e, hs⟩ := vstm_words out (r * 12 + c) v hb (by omega)
  refine ⟨out', ?_, hs.len, OUpd.of_stored hs hc hv⟩
  rw [ha, show 48 * r + 4 * c = 4 * (r * 12 + c) by omega]
  exact e

theorem put2 {base : Nat} (hb : base % 4 = 0) {out : Bytes} {h : Nat → Nat → Lane} (r a : Nat) (ha : a = 48 * r + 16) (u v : Vec 4)
    (hl : 48 * (r + 1) ≤ out.length) (hu : ∀ j < 4, u.at j = h r (4 + j)) (hv : ∀ j < 4, v.at j = h r (8 + j)) :
    ∃ out', vstm2 base out a u v = some out' ∧ out'.length = out.length ∧ OUpd 12 out out' r (r + 1) 4 12 h := by
  obtain ⟨o1, e1, l1, u1⟩ := put hb r 4 a (by omega) u (by omega) hl hu
  obtain ⟨o2, e2, l2, u2⟩ := put hb (out := o1) r 8 (a + 16) (by omega) v (by omega) (by omega) hv
  refine ⟨o2, ?_, l2.trans l1, u1.cols u2 (by omega) (by omega)⟩
  unfold vstm2
  rw [e1]
  exact e2

theorem sequentiate_ok {base : Nat} (hb : base % 4 = 0) (g : Regs) {kRoll out : Bytes} (hk : kRoll.length = 48) (t : Nat)
    (hl : 48 * (t + 4) ≤ out.length) {h : Nat → Nat → Lane} (hrow : ∀ (l : Fin 4) (p : Fin 12), g.row p.val l ^^^ wd kRoll p.val = h (t + l.val) p.val) :
    ∃ out', sequentiate base g kRoll out (48 * t) = some (out', 48 * (t + 4)) ∧ OUpd 12 out out' t (t + 4) 0 12 h := by
  have e := vldm3_ok (base := 0) kRoll 0 rfl (Nat.le_of_eq hk.symm)
  rw [Nat.mul_zero] at e
  let K : Nat → Vec 4 := fun y l => wd kRoll (0 + 4 * y + l.val)
  let V : Nat → Fin 4 → Vec 4 := fun y l => xor ![g.row (4 * y) l, g.row (4 * y + 1) l, g.row (4 * y + 2) l, g.row (4 * y + 3) l] (K y)
  have hV : ∀ y < 3, ∀ l : Fin 4, ∀ j < 4, (V y l).at j = h (t + l.val) (4 * y + j) := fun y hy l j hj => by
    have := hrow l ⟨4 * y + j, by omega⟩
    rw [← this]
    interval_cases y <;> interval_cases j <;> rfl
  obtain ⟨o1, e1, l1, u1⟩ := put hb (out := out) t 0 (48 * t) (by omega) (V 0 0) (by omega) (by omega) (hV 0 (by omega) 0)
  obtain ⟨o2, e2, l2, u2⟩ := put hb (out := o1) (t + 1) 0 (48 * t + 48) (by omega) (V 0 1) (by omega) (by omega) (hV 0 (by omega) 1)
  obtain ⟨o3, e3, l3, u3⟩ := put hb (out := o2) (t + 2) 0 (48 * t + 48 + 48) (by omega) (V 0 2) (by omega) (by omega) (hV 0 (by omega) 2)
  obtain ⟨o4, e4, l4, u4⟩ := put hb (out := o3) (t + 3) 0 (48 * t + 48 + 48 + 48) (by omega) (V 0 3) (by omega) (by omega) (hV 0 (by omega) 3)
  obtain ⟨o5, e5, l5, u5⟩ := put2 hb (out := o4) t (48 * t + 16) (by omega) (V 1 0) (V 2 0) (by omega) (hV 1 (by omega) 0) (hV 2 (by omega) 0)
  obtain ⟨o6, e6, l6, u6⟩ := put2 hb (out := o5) (t + 1) (48 * t + 48 + 16) (by omega) (V 1 1) (V 2 1) (by omega) (hV 1 (by omega) 1) (hV 2 (by omega) 1)
  obtain ⟨o7, e7, l7, u7⟩ := put2 hb (out := o6) (t + 2) (48 * t + 48 + 48 + 16) (by omega) (V 1 2) (V 2 2) (by omega) (hV 1 (by omega) 2)
    (hV 2 (by omega) 2)
  obtain ⟨o8, e8, l8, u8⟩ := put2 hb (out := o7) (t + 3) (48 * t + 48 + 48 + 48 + 16) (by omega) (V 1 3) (V 2 3) (by omega) (hV 1 (by omega) 3)
    (hV 2 (by omega) 3)
  refine ⟨o8, ?_, ?_⟩
  · have eq : sequentiate base g kRoll out (48 * t) = (vldm3 0 kRoll 0).bind fun k =>
        (vstm base out (48 * t) (xor ![g.q0 0, g.q1 0, g.q2 0, g.q3 0] k.1)).bind fun o =>
        (vstm base o (48 * t + 48) (xor ![g.q0 1, g.q1 1, g.q2 1, g.q3 1] k.1)).bind fun o =>
        (vstm base o (48 * t + 48 + 48) (xor ![g.q0 2, g.q1 2, g.q2 2, g.q3 2] k.1)).bind fun o =>
        (vstm base o (48 * t + 48 + 48 + 48) (xor ![g.q0 3, g.q1 3, g.q2 3, g.q3 3] k.1)).bind fun o =>
        (vstm2 base o (48 * t + 16) (xor ![g.q4 0, g.q5 0, g.q6 0, g.q7 0] k.2.1) (xor ![g.q8 0, g.q9 0, g.q10 0, g.q11 0] k.2.2)).bind fun o =>
        (vstm2 base o (48 * t + 48 + 16) (xor ![g.q4 1, g.q5 1, g.q6 1, g.q7 1] k.2.1) (xor ![g.q8 1, g.q9 1, g.q10 1, g.q11 1] k.2.2)).bind fun o =>
        (vstm2 base o (48 * t + 48 + 48 + 16) (xor ![g.q4 2, g.q5 2, g.q6 2, g.q7 2] k.2.1) (xor ![g.q8 2, g.q9 2, g.q10 2, g.q11 2] k.2.2)).bind fun o =>
        (vstm2 base o (48 * t + 48 + 48 + 48 + 16) (xor ![g.q4 3, g.q5 3, g.q6 3, g.q7 3] k.2.1) (xor ![g.q8 3, g.q9 3, g.q10 3, g.q11 3] k.2.2)).bind fun o =>
        some (o, 48 * t + 48 + 48 + 48 + 16 + 32) := rfl
    rw [eq, e, Option.bind_some]
    refine (congrArg (Option.bind · _) e1).trans ?_
    refine (congrArg (Option.bind · _) e2).trans ?_
    refine (congrArg (Option.bind · _) e3).trans ?_
    refine (congrArg (Option.bind · _) e4).trans ?_
    refine (congrArg (Option.bind · _) e5).trans ?_
    refine (congrArg (Option.bind · _) e6).trans ?_
    refine (congrArg (Option.bind · _) e7).trans ?_
    refine (congrArg (Option.bind · _) e8).trans ?_
    exact congrArg some (Prod.ext rfl (show 48 * t + 48 + 48 + 48 + 16 + 32 = 48 * (t + 4) by omega))
  · have a := ((u1.rows u2 (by omega) (by omega)).rows u3 (by omega) (by omega)).rows u4 (by omega) (by omega)
    have b := ((u5.rows u6 (by omega) (by omega)).rows u7 (by omega) (by omega)).rows u8 (by omega) (by omega)
    exact a.cols b (by omega) (by omega)

/-- What holds after `i` iterations of the loop of the expansion. -/
structure EInv (y kRoll output : Bytes) (i : Nat) (s : Es) : Prop where
  acc : AtSeq (sq re1 y) (4 * i) s.y
  out : OUpd 12 output s.out 0 (4 * i) 0 12 (outWord kRoll y)
  r2 : s.r2 = 48 * (4 * i)
  r11 : s.r11 = 192 * i

theorem expandBody_ok {base : Nat} (hb : base % 4 = 0) {y kRoll output : Bytes} (hk : kRoll.length = 48) (i : Nat)
    (hi : 192 * (i + 1) ≤ output.length) (s : Es) (h : EInv y kRoll output i s) :
    ∃ s', expandBody base kRoll s = some s' ∧ EInv y kRoll output (i + 1) s' := by
  have hs := fun t => shift_re1.step (k := y) t
  obtain ⟨g1, y1, e1, f1, f2⟩ := rollZipE_ok hs h.acc s.g
  obtain ⟨o2, e2, f3⟩ := sequentiate_ok hb (sixStar g1) (out := s.out) hk (4 * i) (by rw [h.out.len]; omega) (h := outWord kRoll y) fun l p => by
    rw [sixStar_row, outWord, wd_P6]
    congr 2
    funext q
    rw [f2, shift_re1.word _ _ q.isLt]
  refine ⟨⟨sixStar g1, y1, o2, 48 * (4 * i + 4), s.r11 + 192⟩, ?_, ?_⟩
  · unfold expandBody
    rw [e1]
    simp only [Option.bind_eq_bind, Option.bind_some]
    rw [h.r2, e2, Option.bind_some]
  · exact ⟨f1, h.out.rows f3 (by omega) (by omega), rfl, by dsimp only; rw [h.r11]; omega⟩

section

variable {C : Farfalle.Cfg} (hp : C.permute = P6) (hre : C.rolle = Xoofff.rolle)
include hp hre

theorem expand_ok (g : Regs) {base : Nat} (hb : base % 4 = 0) {y kRoll output : Bytes} (hy : y.length = 48) (hk : kRoll.length = 48) (len : Nat)
    (h1 : 192 ≤ len) (hl : len ≤ output.length) (h32 : len < 2 ^ 32) : expandFastLoop g base y kRoll output len =
      some (Nat.repeat (Farfalle.re C) (len / 192 * 4) y, Farfalle.gen C kRoll (len / 192 * 4) y ++ output.drop (len / 192 * 192), len / 192 * 192) := by
  obtain ⟨s, e, hI⟩ := fastLoop_inv (EInv y kRoll output) (len / 192)
    (fun i s hi hI => expandBody_ok hb hk i (by omega) s hI) (2 ^ 32) 0 (len - 192) ⟨g, y, output, 0, 0⟩ (by omega) (by omega)
    ⟨⟨hy, fun p hp => by
      have := shift_re1.word (k := y) 0 p hp
      exact this⟩, ⟨rfl, fun q => by rw [if_neg (by omega)]⟩, rfl, rfl⟩
  have hr : Farfalle.re C = re1 := by funext k; rw [Farfalle.re, hre]; rfl
  have ey : s.y = Nat.repeat (Farfalle.re C) (len / 192 * 4) y := by
    rw [hr]
    refine words_ext hI.acc.1 (shift_re1.length hy _) fun p hp => ?_
    rw [hI.acc.2 p hp, shift_re1.word _ _ hp, Nat.mul_comm 4]
  have hg := length_gen6 hp hk (len / 192 * 4) y
  have ho : s.out = Farfalle.gen C kRoll (len / 192 * 4) y ++ output.drop (len / 192 * 192) := by
    apply bytes_ext
    · rw [hI.out.len, List.length_append, hg, List.length_drop]; omega
    · intro q _
      rw [hI.out.byte]
      by_cases hq : q < 48 * (len / 192 * 4)
      · rw [if_pos (by omega), List.getD_append _ _ _ _ (by omega), getD_gen hp hre hk _ _ _ hq]
      · rw [if_neg (by omega), List.getD_append_right _ _ _ _ (by omega), hg, List.getD_eq_getElem?_getD, List.getD_eq_getElem?_getD,
          List.getElem?_drop]
        congr 2; omega
  unfold expandFastLoop
  rw [if_pos hb, sub32_eq h1 h32, e, Option.bind_eq_bind, Option.bind_some, hI.r11, ey, ho, Nat.mul_comm 192]

end

end XoodooTimes4Neon
