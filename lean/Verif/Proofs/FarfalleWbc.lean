import Verif.Proofs.FarfalleSane

/-! The wide block cipher on top of Kravatte and Xoofff. -/

namespace Farfalle

variable {C : Cfg} {P : Spec.Farfalle.Par}

/-! ## The split -/

theorem intShl_some {x : Nat} (h : x ≤ 30) : intShl x = some (2 ^ x) := by rw [intShl, if_pos (by omega)]

theorem splitLoop_some (q : Nat) (hq : q ≤ 2 ^ 30) : ∀ (fuel x : Nat), 1 ≤ x → x ≤ 30 → 30 - x < fuel → (x = 1 ∨ 2 ^ (x - 1) < q) →
    ∃ y, splitLoop q fuel x = some y ∧ 1 ≤ y ∧ y ≤ 30 ∧ q ≤ 2 ^ y ∧ (y = 1 ∨ 2 ^ (y - 1) < q) := by
  intro fuel
  induction fuel with
  | zero => intro x _ _ h; omega
  | succ fuel ih =>
    intro x h1 h30 hf hx
    simp only [splitLoop, intShl_some h30, Option.bind_eq_bind, Option.bind_some]
    by_cases h : 2 ^ x < q
    · rw [if_pos h]
      have : x < 30 := by
        by_contra hc
        have : 2 ^ 30 ≤ 2 ^ x := Nat.pow_le_pow_right (by omega) (by omega)
        omega
      exact ih (x + 1) (by omega) (by omega) (by omega) (.inr (by simpa using h))
    · rw [if_neg h]
      exact ⟨x, rfl, h1, h30, by omega, hx⟩

theorem splitLoop_none (q : Nat) (hq : 2 ^ 30 < q) : ∀ (fuel x : Nat), x ≤ 31 → 31 - x < fuel → splitLoop q fuel x = none := by
  intro fuel
  induction fuel with
  | zero => intro x _ h; omega
  | succ fuel ih =>
    intro x hx hf
    by_cases h : x = 31
    · subst h; rfl
    · have hp : 2 ^ x ≤ 2 ^ 30 := Nat.pow_le_pow_right (by omega) (by omega)
      simp only [splitLoop, intShl_some (show x ≤ 30 by omega), Option.bind_eq_bind, Option.bind_some]
      rw [if_pos (by omega)]
      exact ih (x + 1) (by omega) (by omega)

/-- The split function of the code gives the split of the specification, as long as there are at most 2^30 blocks. -/
theorem wbcSplit_spec (hw : 0 < C.width) (n : Nat) (hn : n + 10 ≤ 2 ^ 30 * (8 * C.width)) (hb : n + 8 * C.width + 9 < 2 ^ 64) :
    ∃ nL, wbcSplit C n = some nL ∧ Spec.Farfalle.IsSplit (8 * C.width) 8 n nL := by
  simp only [wbcSplit, WBC_l, Nat.mul_comm C.width 8]
  by_cases h : n ≤ 2 * (8 * C.width) - (8 + 2)
  · rw [if_pos h]
    refine ⟨_, rfl, ⟨by omega, ⟨_, rfl⟩, fun _ => ⟨by omega, by omega, by omega, by omega⟩, fun h' => by omega⟩⟩
  · rw [if_neg h]
    generalize hbb : 8 * C.width = b at *
    have hb8 : 8 ≤ b := by omega
    rw [Nat.mod_eq_of_lt (show n + 8 + 2 + (b - 1) < 2 ^ 64 by omega)]
    generalize hq : (n + 8 + 2 + (b - 1)) / b = q
    have hq1 : n + 10 ≤ q * b := by
      have h1 := Nat.div_add_mod (n + 8 + 2 + (b - 1)) b
      have h2 := Nat.mod_lt (n + 8 + 2 + (b - 1)) (show b > 0 by omega)
      rw [hq, Nat.mul_comm b q] at h1
      omega
    have hq2 : q * b < n + 10 + b := by
      have := Nat.div_mul_le_self (n + 8 + 2 + (b - 1)) b
      rw [hq] at this
      omega
    have hq30 : q ≤ 2 ^ 30 := by
      by_contra hc
      have : (2 ^ 30 + 1) * b ≤ q * b := Nat.mul_le_mul_right _ (by omega)
      rw [Nat.add_mul] at this
      omega
    have hq3 : 3 ≤ q := by
      by_contra hc
      have : q * b ≤ 2 * b := Nat.mul_le_mul_right _ (by omega)
      omega
    obtain ⟨y, h1, h2, h3, h4, h5⟩ := splitLoop_some q hq30 32 1 (by omega) (by omega) (by omega) (.inl rfl)
    have hy : 2 ^ (y - 1) < q := by
      rcases h5 with h5 | h5
      · subst h5; omega
      · exact h5
    simp only [h1, Option.bind_eq_bind, Option.bind_some, intShl_some (show y - 1 ≤ 30 by omega)]
    have hpow : 2 ^ y = 2 ^ (y - 1) + 2 ^ (y - 1) := by
      conv_lhs => rw [show y = y - 1 + 1 by omega, Nat.pow_succ]
      omega
    have hp1 : 1 ≤ 2 ^ (y - 1) := Nat.one_le_two_pow
    generalize hp : 2 ^ (y - 1) = p at *
    have e1 : (q + 2 ^ 64 - p) % 2 ^ 64 = q - p := by
      rw [show q + 2 ^ 64 - p = (q - p) + 2 ^ 64 by omega, Nat.add_mod_right, Nat.mod_eq_of_lt (by omega)]
    have hd : 1 ≤ q - p := by omega
    have hdb : b ≤ (q - p) * b := Nat.le_mul_of_pos_left b hd
    have hsub : (q - p) * b + p * b = q * b := by rw [← Nat.add_mul]; congr 1; omega
    have hpb : 2 * b ≤ p * b := Nat.mul_le_mul_right b (by omega)
    have e2 : ((q - p) * b + 2 ^ 64 - 8) % 2 ^ 64 = (q - p) * b - 8 := by
      rw [show (q - p) * b + 2 ^ 64 - 8 = ((q - p) * b - 8) + 2 ^ 64 by omega, Nat.add_mod_right, Nat.mod_eq_of_lt (by omega)]
    rw [e1, e2]
    refine ⟨_, rfl, ⟨by omega, ?_, fun h' => by omega, fun _ => ⟨y - 1, q - p, ?_, ?_, hd, by rw [hp]; omega, by omega⟩⟩⟩
    · have : (8 : Nat) ∣ (q - p) * b := by rw [← hbb]; exact ⟨(q - p) * C.width, by rw [Nat.mul_left_comm]⟩
      exact Nat.dvd_sub this (Nat.dvd_refl 8)
    · rw [hp]
      have : (n - ((q - p) * b - 8) + 1) / b = p - 1 := by
        rw [Nat.div_eq_iff (by omega)]
        have : (p - 1) * b + b = p * b := by rw [Nat.sub_mul, Nat.one_mul]; omega
        constructor <;> omega
      omega
    · have : ((q - p) * b - 8 + 1) / b = q - p - 1 := by
        rw [Nat.div_eq_iff (by omega)]
        have : (q - p - 1) * b + b = (q - p) * b := by rw [Nat.sub_mul (q - p), Nat.one_mul]; omega
        constructor <;> omega
      omega

/-- With more than 2^30 blocks the code shifts the `int` 1 by 31 positions. -/
theorem wbcSplit_none (n : Nat) (hn : 2 ^ 30 * (8 * C.width) < n + 10) (hw : 0 < C.width) (hb : n + 8 * C.width + 9 < 2 ^ 64) :
    wbcSplit C n = none := by
  simp only [wbcSplit, WBC_l, Nat.mul_comm C.width 8]
  have hbig : 4 * (8 * C.width) ≤ 2 ^ 30 * (8 * C.width) := Nat.mul_le_mul_right _ (by decide)
  generalize hbb : 8 * C.width = b at *
  rw [if_neg (by omega), Nat.mod_eq_of_lt (show n + 8 + 2 + (b - 1) < 2 ^ 64 by omega), splitLoop_none]
  · rfl
  · by_contra hc
    have h1 := Nat.lt_div_mul_add (a := n + 8 + 2 + (b - 1)) (b := b) (by omega)
    have h2 : (n + 8 + 2 + (b - 1)) / b * b ≤ 2 ^ 30 * b := Nat.mul_le_mul_right _ (by omega)
    omega
  · omega
  · omega

/-! ## Strings -/

theorem length_xorFirst (X Y : Bits) (h : Y.length ≤ X.length) : (Spec.Farfalle.xorFirst X Y).length = X.length := by
  rw [Spec.Farfalle.xorFirst, List.length_append, length_xorBits, List.length_take, List.length_drop]; omega

theorem xorFirst_cancel (X Y : Bits) (h : Y.length ≤ X.length) : Spec.Farfalle.xorFirst (Spec.Farfalle.xorFirst X Y) Y = X := by
  have hl : (Spec.xorBits (X.take Y.length) Y).length = Y.length := by rw [length_xorBits, List.length_take]; omega
  conv_lhs => rw [Spec.Farfalle.xorFirst]
  have e1 : (Spec.Farfalle.xorFirst X Y).take Y.length = Spec.xorBits (X.take Y.length) Y := by
    rw [Spec.Farfalle.xorFirst, List.take_append_of_le_length (by omega), List.take_of_length_le (by omega)]
  have e2 : (Spec.Farfalle.xorFirst X Y).drop Y.length = X.drop Y.length := by
    rw [Spec.Farfalle.xorFirst, List.drop_append_of_le_length (by omega), List.drop_of_length_le (by omega), List.nil_append]
  rw [e1, e2, xorBits_cancel _ _ (by rw [List.length_take]; omega), List.take_append_drop]

/-- `memxoris` on the first bits of a longer target. -/
theorem Holds.addIsFirst {t s : Bytes} {T A : Bits} (ht : Holds t T) (hs : Holds s A) (hle : A.length ≤ T.length)
    (h8 : A.length % 8 = 0 ∨ A.length = T.length) :
    ∃ o, Farfalle.addIs t s A.length = some o ∧ Holds o (Spec.Farfalle.xorFirst T A) := by
  obtain ⟨o, h1, h2⟩ := addIs_spec t s A.length (by rw [ht.length]; omega) (by rw [hs.length])
  refine ⟨o, h1, ?_⟩
  rw [Holds, length_xorFirst _ _ hle, h2, hs.take, ht.take_le hle, Spec.Farfalle.xorFirst, List.append_assoc, List.append_assoc]
  congr 1
  rcases h8 with h8 | h8
  · rw [h8, show (A.length + 7) / 8 = A.length / 8 by omega, ← Bits.drop_ofBytes, show 8 * (A.length / 8) = A.length by omega,
      show Bits.ofBytes t = _ from ht, List.drop_append_of_le_length hle]
    simp
  · rw [List.drop_of_length_le (by rw [ht.length]; omega), List.drop_of_length_le (by omega), h8]
    simp

/-- Two calls of `memxoris`, for the first bits and for the rest. -/
theorem addIs2_spec {t s u : Bytes} {T A : Bits} (ht : Holds t T) (hs : Holds s A) (hle : A.length ≤ T.length)
    (h8 : A.length % 8 = 0 ∨ A.length = T.length) (hu : (T.length + 7) / 8 ≤ u.length) :
    ∃ o, addIs2 t s u A.length T.length = some o ∧
      Holds o (Spec.xorBits (A ++ ((Bits.ofBytes u).take T.length).drop A.length) T) := by
  obtain ⟨o1, h1, ho1⟩ := ht.addIsFirst hs hle h8
  have hl1 := length_xorFirst T A hle
  have hxl : (Spec.xorBits (T.take A.length) A).length = A.length := by rw [length_xorBits, List.length_take]; omega
  have hx : Spec.xorBits (A ++ ((Bits.ofBytes u).take T.length).drop A.length) T =
      Spec.xorBits (T.take A.length) A ++ Spec.xorBits (T.drop A.length) (((Bits.ofBytes u).take T.length).drop A.length) := by
    conv_lhs => rw [← List.take_append_drop A.length T]
    rw [xorBits_append _ _ _ _ (by rw [List.length_take]; omega), xorBits_comm A]
    rw [List.take_append_drop A.length T, xorBits_comm (T.drop A.length)]
  simp only [addIs2, Option.bind_eq_bind]
  rw [h1, Option.bind_some, hx]
  rcases h8 with h8 | h8
  · have hd : Holds (o1.drop (A.length / 8)) (T.drop A.length) := by
      rw [Holds, ← Bits.drop_ofBytes, show Bits.ofBytes o1 = _ from ho1, show 8 * (A.length / 8) = A.length by omega,
        List.drop_append_of_le_length (by omega), hl1, List.length_drop,
        show (T.length - A.length) % 8 = T.length % 8 by omega, Spec.Farfalle.xorFirst, List.drop_append_of_le_length (by omega),
        List.drop_of_length_le (by omega), List.nil_append]
    obtain ⟨o2, h2, ho2⟩ := hd.addIs (s := u.drop (A.length / 8)) (by rw [List.length_drop, List.length_drop]; omega)
    rw [List.length_drop] at h2 ho2
    rw [h2]
    refine ⟨_, rfl, ?_⟩
    rw [Holds, Bits.ofBytes_append, show Bits.ofBytes o2 = _ from ho2, ← Bits.take_ofBytes, show 8 * (A.length / 8) = A.length by omega,
      ho1.take_le (by omega), Spec.Farfalle.xorFirst, List.take_append_of_le_length (by omega), List.take_of_length_le (by omega),
      List.append_assoc, ← Bits.drop_ofBytes, show 8 * (A.length / 8) = A.length by omega, List.drop_take,
      xorBits_comm (T.drop A.length)]
    congr 2
    rw [length_xorBits, List.length_append, hxl, length_xorBits, List.length_take, List.length_drop, List.length_drop, Bits.length_ofBytes]
    congr 1
    omega
  · have hz : T.length - A.length = 0 := by omega
    rw [hz, addIs_eq _ _ _ (by omega) (by omega)]
    refine ⟨_, rfl, ?_⟩
    have : o1.take (A.length / 8) ++ (Bytes.xor ((o1.drop (A.length / 8)).take (0 / 8)) ((u.drop (A.length / 8)).take (0 / 8)) ++
        (o1.drop (A.length / 8)).drop (0 / 8)) = o1 := by
      simp [Bytes.xor]
    rw [this]
    have e : Spec.xorBits (T.take A.length) A ++ Spec.xorBits (T.drop A.length) (((Bits.ofBytes u).take T.length).drop A.length) =
        Spec.Farfalle.xorFirst T A := by
      rw [Spec.Farfalle.xorFirst, List.drop_of_length_le (by omega)]
      simp [Spec.xorBits]
    rw [e]
    exact ho1

theorem wbc_byte : ∀ r < 8, ∀ d < 256, Holds [BitVec.ofNat 8 d &&& BitVec.ofNat 8 (2 ^ r - 1) ||| BitVec.ofNat 8 (2 ^ r)]
    ((Bits.ofByte (BitVec.ofNat 8 d)).take r ++ [true]) := by decide +kernel

/-- The last byte of `R || 1`. -/
theorem wbcLastByte_spec (r : Bytes) (nR : Nat) (hr : (nR + 7) / 8 ≤ r.length) :
    ∃ b, wbcLastByte r nR = some b ∧ Holds [b] (((Bits.ofBytes r).take nR).drop (nR - nR % 8) ++ [true]) := by
  unfold wbcLastByte
  have hlen := length_take_ofBytes hr
  by_cases h8 : nR % 8 = 0
  · rw [if_neg (by omega), h8, List.drop_of_length_le (by omega)]
    exact ⟨1, rfl, by decide⟩
  · rw [if_pos h8]
    obtain ⟨d, hd⟩ : ∃ d, r[nR / 8]? = some d := ⟨r[nR / 8]'(by omega), List.getElem?_eq_getElem _⟩
    rw [hd, take_ofBytes_byte r nR d hd]
    refine ⟨_, rfl, ?_⟩
    have hb := wbc_byte (nR % 8) (Nat.mod_lt _ (by omega)) d.toNat d.isLt
    rw [BitVec.ofNat_toNat, BitVec.setWidth_eq] at hb
    rw [List.drop_append_of_le_length (by rw [Bits.length_ofBytes, List.length_take]; omega),
      List.drop_of_length_le (by rw [Bits.length_ofBytes, List.length_take]; omega), List.nil_append]
    exact hb

theorem holds_zero : Holds [(0 : Byte)] [false] := by decide

/-! ## The calls -/

theorem wbcCall_spec (hC : Valid C) (hM : Matches C P) {kv : Inst} {S : Spec.Farfalle.Obj} (h : Rep C P kv S) (data : Bytes) (len : Nat)
    (init : Bool) (h8 : len % 8 = 0) (hd : len / 8 ≤ data.length) (b : Byte) (l : Bits) (m : Nat) (hb : Holds [b] l)
    (hm : m = l.length) (n : Nat) (hn : n + 7 < 2 ^ 64) (short : Bool) :
    ∃ kv' o, wbcCall C kv data len init b m n short = some (0, kv', o) ∧
      Holds o (Spec.Farfalle.output (if short then P.short else P) S.k
        ((if init then [] else S.done) ++ [(if init then [] else S.cur) ++ (Bits.ofBytes data).take len ++ l]) 0 n) ∧
      Rep C P kv' ⟨S.k, (if init then [] else S.done) ++ [(if init then [] else S.cur) ++ (Bits.ofBytes data).take len ++ l], [],
        .finished⟩ := by
  obtain ⟨kv1, h1, r1⟩ := h.piece hC hM data len init h8 hd
  obtain ⟨kv2, o, h2, ho, r2⟩ := r1.full hC hM b l m hb hm n hn short
  refine ⟨kv2, o, ?_, ho, r2⟩
  simp only [wbcCall, Option.bind_eq_bind]
  rw [h1, Option.bind_some, if_neg (by simp)]
  exact h2

theorem kRoll_fixed (hC : Valid C) (k : Bytes) (hk : k.length = C.width) (j : Nat) :
    (Nat.repeat (rc C) j k).take C.rollcOffset = k.take C.rollcOffset ∧ (Nat.repeat (rc C) j k).length = C.width := by
  induction j with
  | zero => exact ⟨rfl, hk⟩
  | succ j ih =>
    constructor
    · rw [Nat.repeat]
      exact (hC.rollc_ok.fixed _ ih.2).trans ih.1
    · exact hC.rollc_ok.len _ ih.2

/-- Restoring the mask and the accumulator brings the history back. -/
theorem Rep.restore (hC : Valid C) {kv0 kv : Inst} {k : Bits} {hist hist' : List Bits} (h0 : Rep C P kv0 ⟨k, hist, [], .input⟩)
    (h : Rep C P kv ⟨k, hist', [], .finished⟩) :
    Rep C P (wbcRestore C kv (Bytes.slice kv0.kRoll C.rollcOffset C.rollcSize) kv0.xAccu) ⟨k, hist, [], .finished⟩ := by
  obtain ⟨_, st, r, hr, hacc, heat, _⟩ := h0.body
  obtain ⟨_, hacc', hph⟩ := h.body
  have hrn : r = [] := by
    have := congrArg List.length (show ([] : Bits) = Bits.ofBytes r from hr)
    rw [Bits.length_ofBytes] at this
    exact List.length_eq_zero_iff.mp (by rw [List.length_nil] at this; omega)
  subst hrn
  have hst : st = (kv0.kRoll, kv0.xAccu) := by rw [heat]; simp [eat]
  rw [hst] at hacc
  have hk : kv.k = kv0.k := Bits.ofBytes_injective (h.k.trans h0.k.symm)
  have hos := hC.rollc_ok.off_size
  have e1 : Bytes.setAt kv.kRoll C.rollcOffset (Bytes.slice kv0.kRoll C.rollcOffset C.rollcSize) = kv0.kRoll := by
    have f1 := (kRoll_fixed hC kv.k h.sized.k (Spec.Farfalle.compress P (Bits.ofBytes kv.k) hist').2).1
    have f2 := (kRoll_fixed hC kv0.k h0.sized.k (Spec.Farfalle.compress P (Bits.ofBytes kv0.k) hist).2).1
    rw [← show kv.kRoll = _ from hacc'.mask] at f1
    rw [← show kv0.kRoll = _ from hacc.mask, ← hk, ← f1] at f2
    have hl1 := h.sized.kRoll
    have hl2 := h0.sized.kRoll
    have hsl : (Bytes.slice kv0.kRoll C.rollcOffset C.rollcSize).length = C.rollcSize := Bytes.length_slice_of_le (by omega)
    apply List.ext_getElem?
    intro i
    rw [Bytes.getElem?_setAt, hsl]
    by_cases hi : i < C.width
    · rw [List.getElem?_eq_getElem (show i < kv.kRoll.length by omega), Option.map_some]
      by_cases hio : C.rollcOffset ≤ i
      · rw [if_pos (by omega), List.getD_eq_getElem?_getD, Bytes.getElem?_slice, if_pos (by omega),
          show C.rollcOffset + (i - C.rollcOffset) = i by omega, List.getElem?_eq_getElem (show i < kv0.kRoll.length by omega)]
        rfl
      · rw [if_neg (by omega), ← List.getElem?_eq_getElem]
        have := congrArg (fun l => l[i]?) f2
        simp only [List.getElem?_take, if_pos (show i < C.rollcOffset by omega)] at this
        exact this.symm
    · rw [List.getElem?_eq_none (show kv.kRoll.length ≤ i by omega), List.getElem?_eq_none (show kv0.kRoll.length ≤ i by omega)]
      rfl
  have e2 : Bytes.setAt kv.xAccu 0 kv0.xAccu = kv0.xAccu := by
    have hl1 := h.sized.xAccu
    have hl2 := h0.sized.xAccu
    apply List.ext_getElem?
    intro i
    rw [Bytes.getElem?_setAt]
    by_cases hi : i < C.width
    · rw [List.getElem?_eq_getElem (show i < kv.xAccu.length by omega), Option.map_some, if_pos (by omega),
        List.getD_eq_getElem?_getD, Nat.sub_zero, List.getElem?_eq_getElem (show i < kv0.xAccu.length by omega)]
      rfl
    · rw [List.getElem?_eq_none (show kv.xAccu.length ≤ i by omega), List.getElem?_eq_none (show kv0.xAccu.length ≤ i by omega)]
      rfl
  have hs := h.sized
  rw [wbcRestore, e1, e2]
  exact ⟨⟨hs.k, h0.sized.kRoll, h0.sized.xAccu, hs.yAccu, hs.queue⟩, h.k, rfl, by rw [hk]; exact hacc, hph⟩

theorem Holds.append {a b : Bytes} {A B : Bits} (ha : Holds a A) (h8 : A.length % 8 = 0) (hb : Holds b B) : Holds (a ++ b) (A ++ B) := by
  rw [Holds, Bits.ofBytes_append, show Bits.ofBytes a = _ from ha, show Bits.ofBytes b = _ from hb, h8, List.length_append,
    show (A.length + B.length) % 8 = B.length % 8 by omega]
  simp

theorem length_H (k X : Bits) (n : Nat) : (Spec.Farfalle.H P k X n).length = n := by rw [Spec.Farfalle.H, length_output]

theorem length_G (k W X : Bits) (n : Nat) : (Spec.Farfalle.G P k W X n).length = n := by rw [Spec.Farfalle.G, length_output]

/-- The bits of `R || 1` before the last byte and those of the last byte. -/
theorem take_last (r : Bytes) (nR : Nat) :
    (Bits.ofBytes r).take (nR - nR % 8) ++ (((Bits.ofBytes r).take nR).drop (nR - nR % 8) ++ [true]) =
      (Bits.ofBytes r).take nR ++ [true] := by
  rw [← List.append_assoc]
  congr 1
  conv_rhs => rw [← List.take_append_drop (nR - nR % 8) ((Bits.ofBytes r).take nR)]
  rw [List.take_take, Nat.min_eq_left (by omega)]

theorem length_last (r : Bytes) (nR : Nat) (hr : (nR + 7) / 8 ≤ r.length) :
    nR % 8 + 1 = (((Bits.ofBytes r).take nR).drop (nR - nR % 8) ++ [true]).length := by
  rw [List.length_append, List.length_drop, length_take_ofBytes hr, List.length_singleton]; omega

/-- `H(X || 0)`. -/
theorem wbcCall_H0 (hC : Valid C) (hM : Matches C P) {kv : Inst} {S : Spec.Farfalle.Obj} (h : Rep C P kv S) (d : Bytes) (len : Nat)
    (h8 : len % 8 = 0) (hd : len / 8 ≤ d.length) (n : Nat) (hn : n + 7 < 2 ^ 64) :
    ∃ kv' o S', wbcCall C kv d len true 0 1 n true = some (0, kv', o) ∧
      Holds o (Spec.Farfalle.H P S.k ((Bits.ofBytes d).take len ++ [false]) n) ∧ Rep C P kv' S' ∧ S'.k = S.k := by
  obtain ⟨kv', o, h1, h2, h3⟩ := wbcCall_spec hC hM h d len true h8 hd 0 [false] 1 holds_zero rfl n hn true
  exact ⟨kv', o, _, h1, h2, h3, rfl⟩

/-- `H(X || 1)`. -/
theorem wbcCall_H1 (hC : Valid C) (hM : Matches C P) {kv : Inst} {S : Spec.Farfalle.Obj} (h : Rep C P kv S) (d : Bytes) (len : Nat)
    (hd : (len + 7) / 8 ≤ d.length) (n : Nat) (hn : n + 7 < 2 ^ 64) :
    ∃ b kv' o S', wbcLastByte d len = some b ∧ wbcCall C kv d (len - len % 8) true b (len % 8 + 1) n true = some (0, kv', o) ∧
      Holds o (Spec.Farfalle.H P S.k ((Bits.ofBytes d).take len ++ [true]) n) ∧ Rep C P kv' S' ∧ S'.k = S.k := by
  obtain ⟨b, hb, hbh⟩ := wbcLastByte_spec d len hd
  obtain ⟨kv', o, h1, h2, h3⟩ := wbcCall_spec hC hM h d (len - len % 8) true (by omega) (by omega) b _ _ hbh
    (length_last d len hd) n hn true
  simp only [if_true, List.nil_append] at h2 h3
  rw [take_last] at h2 h3
  exact ⟨b, kv', o, _, hb, h1, h2, h3, rfl⟩

/-- `G(X || 0, W)`, when the instance has compressed `W` and the first part of `X`. -/
theorem wbcCall_G0 (hC : Valid C) (hM : Matches C P) {kv : Inst} {k W cur : Bits} {m : Spec.Farfalle.Mode}
    (h : Rep C P kv ⟨k, [W], cur, m⟩) (d : Bytes) (len : Nat)
    (h8 : len % 8 = 0) (hd : len / 8 ≤ d.length) (n : Nat) (hn : n + 7 < 2 ^ 64) :
    ∃ kv' o hist, wbcCall C kv d len false 0 1 n false = some (0, kv', o) ∧
      Holds o (Spec.Farfalle.G P k W (cur ++ (Bits.ofBytes d).take len ++ [false]) n) ∧ Rep C P kv' ⟨k, hist, [], .finished⟩ := by
  obtain ⟨kv', o, h1, h2, h3⟩ := wbcCall_spec hC hM h d len false h8 hd 0 [false] 1 holds_zero rfl n hn false
  exact ⟨kv', o, _, h1, h2, h3⟩

/-- `G(X || 1, W)`, when the instance has compressed `W` and the first `a` bits of `X`. -/
theorem wbcCall_G1 (hC : Valid C) (hM : Matches C P) {kv : Inst} {k W cur : Bits} {m : Spec.Farfalle.Mode}
    (h : Rep C P kv ⟨k, [W], cur, m⟩) (d : Bytes) (a len : Nat) (h8 : a % 8 = 0) (ha : a ≤ len - len % 8)
    (hd : (len + 7) / 8 ≤ d.length) (n : Nat) (hn : n + 7 < 2 ^ 64) :
    ∃ b kv' o hist, wbcLastByte d len = some b ∧
      wbcCall C kv (d.drop (a / 8)) (len - a - len % 8) false b (len % 8 + 1) n false = some (0, kv', o) ∧
      Holds o (Spec.Farfalle.G P k W (cur ++ ((Bits.ofBytes d).take len).drop a ++ [true]) n) ∧
      Rep C P kv' ⟨k, hist, [], .finished⟩ := by
  obtain ⟨b, hb, hbh⟩ := wbcLastByte_spec d len hd
  obtain ⟨kv', o, h1, h2, h3⟩ := wbcCall_spec hC hM h (d.drop (a / 8)) (len - a - len % 8) false (by omega)
    (by rw [List.length_drop]; omega) b _ _ hbh (length_last d len hd) n hn false
  refine ⟨b, kv', o, _, hb, h1, ?_, h3⟩
  have e : cur ++ (Bits.ofBytes (d.drop (a / 8))).take (len - a - len % 8) ++
      (((Bits.ofBytes d).take len).drop (len - len % 8) ++ [true]) = cur ++ ((Bits.ofBytes d).take len).drop a ++ [true] := by
    have hs : ((Bits.ofBytes d).take len).drop a = ((Bits.ofBytes d).take (len - len % 8)).drop a ++
        ((Bits.ofBytes d).take len).drop (len - len % 8) := by
      conv_lhs => rw [← List.take_append_drop (len - len % 8) ((Bits.ofBytes d).take len), List.take_take,
        Nat.min_eq_left (by omega)]
      rw [List.drop_append_of_le_length (by rw [List.length_take, Bits.length_ofBytes]; omega)]
    have ht : ((Bits.ofBytes d).take (len - len % 8)).drop a = ((Bits.ofBytes d).drop a).take (len - a - len % 8) := by
      rw [List.drop_take]; congr 1; omega
    rw [hs, ht, ← Bits.drop_ofBytes, show 8 * (a / 8) = a by omega]
    simp only [List.append_assoc]
  simp only [Bool.false_eq_true, if_false, List.singleton_append] at h2
  rw [e] at h2
  exact h2

theorem xorBits_length_left {a b : Bits} (h : a.length = b.length) : (Spec.xorBits a b).length = a.length := by
  rw [length_xorBits]; omega

/-- `memxoris` of a fresh output with a buffer. -/
theorem Holds.addIs' {o s : Bytes} {l : Bits} {n : Nat} (h : Holds o l) (hl : l.length = n) (hs : (n + 7) / 8 ≤ s.length) :
    ∃ o', Farfalle.addIs o s n = some o' ∧ Holds o' (Spec.xorBits ((Bits.ofBytes s).take n) l) := by
  subst hl; exact h.addIs hs

theorem Holds.addIsFirst' {t s : Bytes} {T A : Bits} {n : Nat} (ht : Holds t T) (hs : Holds s A) (hA : A.length = n)
    (hle : n ≤ T.length) (h8 : n % 8 = 0 ∨ n = T.length) :
    ∃ o, Farfalle.addIs t s n = some o ∧ Holds o (Spec.Farfalle.xorFirst T A) := by
  subst hA; exact ht.addIsFirst hs hle h8

theorem addIs2_spec' {t s u : Bytes} {T A : Bits} {n0 n : Nat} (ht : Holds t T) (hs : Holds s A) (hA : A.length = n0)
    (hT : T.length = n) (hle : n0 ≤ n) (h8 : n0 % 8 = 0 ∨ n0 = n) (hu : (n + 7) / 8 ≤ u.length) :
    ∃ o, addIs2 t s u n0 n = some o ∧ Holds o (Spec.xorBits (A ++ ((Bits.ofBytes u).take n).drop n0) T) := by
  subst hA hT; exact addIs2_spec ht hs hle h8 hu

/-- The second round of the encipherment. -/
theorem wbcEncL_spec (hC : Valid C) (hM : Matches C P) {kv : Inst} {k W : Bits} (h : Rep C P kv ⟨k, [W], [], .input⟩)
    (lp rp r0 : Bytes) (nL nR nR0 : Nat) (A : Bits) (hA : Holds r0 A) (hAl : A.length = nR0) (hR0 : nR0 ≤ nR)
    (h8 : nR0 % 8 = 0 ∨ nR0 = nR) (hnL : nL + 7 < 2 ^ 64) (hlp : (nL + 7) / 8 ≤ lp.length) (hrp : (nR + 7) / 8 ≤ rp.length) :
    ∃ kv' lc hist, wbcEncL C kv lp rp r0 nL nR nR0 = some (0, kv', lc) ∧
      Holds lc (Spec.xorBits ((Bits.ofBytes lp).take nL)
        (Spec.Farfalle.G P k W (A ++ ((Bits.ofBytes rp).take nR).drop nR0 ++ [true]) nL)) ∧
      Rep C P kv' ⟨k, hist, [], .finished⟩ := by
  unfold wbcEncL
  by_cases he : nR0 = nR
  · rw [if_pos he]
    subst he
    obtain ⟨b, kv1, o, hist, h1, h2, h3, h4⟩ := wbcCall_G1 hC hM h r0 0 nR0 (by omega) (by omega) (by rw [hA.length, hAl]) nL hnL
    rw [Nat.sub_zero, Nat.zero_div, List.drop_zero] at h2
    obtain ⟨lc, h5, h6⟩ := h3.addIs' (length_G ..) hlp
    refine ⟨kv1, lc, hist, ?_, ?_, h4⟩
    · simp only [Option.bind_eq_bind]
      rw [h1, Option.bind_some, h2, Option.bind_some, if_neg (by simp), h5]
      rfl
    · have hd : ((Bits.ofBytes rp).take nR0).drop nR0 = [] := List.drop_of_length_le (by rw [List.length_take]; omega)
      rw [hd, List.append_nil]
      rw [List.drop_zero, List.nil_append, ← hAl, hA.take] at h6
      exact h6
  · rw [if_neg he]
    have h8' : nR0 % 8 = 0 := by omega
    obtain ⟨kv1, h1, r1⟩ := h.piece hC hM r0 nR0 false h8' (by rw [hA.length, hAl]; omega)
    simp only [Bool.false_eq_true, if_false, List.nil_append] at r1
    rw [← hAl, hA.take] at r1
    obtain ⟨b, kv2, o, hist, h2, h3, h4, h5⟩ := wbcCall_G1 hC hM r1 rp nR0 nR h8' (by omega) hrp nL hnL
    obtain ⟨lc, h6, h7⟩ := h4.addIs' (length_G ..) hlp
    refine ⟨kv2, lc, hist, ?_, h7, h5⟩
    simp only [Option.bind_eq_bind]
    change (Farfalle.compress C kv r0 nR0 { init := false }).bind _ = _
    rw [h1, Option.bind_some, if_neg (by simp), h2, Option.bind_some, h3, Option.bind_some, if_neg (by simp), h6]
    rfl

/-- `(a + 2^64 - b) mod 2^64` is the difference. -/
theorem sub64 {a b : Nat} (h : b ≤ a) (ha : a < 2 ^ 64) : (a + 2 ^ 64 - b) % 2 ^ 64 = a - b := by
  rw [show a + 2 ^ 64 - b = (a - b) + 2 ^ 64 by omega, Nat.add_mod_right, Nat.mod_eq_of_lt (by omega)]

/-- `Encipher` computes the wide block cipher. -/
theorem wbcEncipher_spec (hC : Valid C) (hM : Matches C P) {kv : Inst} {S : Spec.Farfalle.Obj} (h : Rep C P kv S) (pt : Bytes)
    (n nL : Nat) (hn : (n + 7) / 8 ≤ pt.length) (hlt : n + 7 < 2 ^ 64) (hsp : wbcSplit C n = some nL) (hle : nL ≤ n) (h8 : 8 ∣ nL)
    (w : Bytes) (wLen : Nat) (hw : (wLen + 7) / 8 ≤ w.length) (hc : Clean w wLen) :
    ∃ kv' ct S', wbcEncipher C kv pt n w wLen = some (0, kv', ct) ∧
      Holds ct (Spec.Farfalle.Wbc.encipher P S.k ((Bits.ofBytes w).take wLen) nL ((Bits.ofBytes pt).take n)) ∧
      Rep C P kv' S' ∧ S'.k = S.k := by
  obtain ⟨k, done, cur, m⟩ := S
  have hb8 : C.width * 8 = P.b := by rw [hM.b, Nat.mul_comm]
  have hb0 : P.b % 8 = 0 := by rw [hM.b]; omega
  have h8' : nL % 8 = 0 := Nat.mod_eq_zero_of_dvd h8
  have eL : ((Bits.ofBytes pt).take n).take nL = (Bits.ofBytes pt).take nL := by rw [List.take_take, Nat.min_eq_left hle]
  have eR : ((Bits.ofBytes pt).take n).drop nL = (Bits.ofBytes (pt.drop (nL / 8))).take (n - nL) := by
    rw [List.drop_take, ← Bits.drop_ofBytes, show 8 * (nL / 8) = nL by omega]
  have hlp : (nL + 7) / 8 ≤ pt.length := by omega
  have hrp : (n - nL + 7) / 8 ≤ (pt.drop (nL / 8)).length := by rw [List.length_drop]; omega
  have lL := length_take_ofBytes hlp
  have lR := length_take_ofBytes hrp
  dsimp only [Spec.Farfalle.Wbc.encipher]
  rw [eL, eR]
  have hlR0 : min P.b (n - nL) ≤ n - nL := Nat.min_le_right ..
  have h8R : min P.b (n - nL) % 8 = 0 ∨ min P.b (n - nL) = n - nL := by
    rcases Nat.le_total P.b (n - nL) with hh | hh
    · rw [Nat.min_eq_left hh]; exact .inl hb0
    · rw [Nat.min_eq_right hh]; exact .inr rfl
  have hlL0 : min P.b nL ≤ nL := Nat.min_le_right ..
  have h8L : min P.b nL % 8 = 0 := by
    rcases Nat.le_total P.b nL with hh | hh
    · rw [Nat.min_eq_left hh]; exact hb0
    · rw [Nat.min_eq_right hh]; exact h8'
  have hnRlt : n - nL + 7 < 2 ^ 64 := by omega
  simp only [wbcEncipher, Option.bind_eq_bind]
  rw [hsp, Option.bind_some, sub64 hle (by omega), hb8]
  generalize hL : (Bits.ofBytes pt).take nL = L at lL ⊢
  generalize hrpd : pt.drop (nL / 8) = rp at lR hrp ⊢
  generalize hR : (Bits.ofBytes rp).take (n - nL) = R at lR ⊢
  rw [lL, lR]
  generalize hnR : n - nL = nR at *
  generalize hnR0 : min P.b nR = nR0 at *
  generalize hnL0 : min P.b nL = nL0 at *
  -- first round
  obtain ⟨kv1, r0, S1, c1, o1, p1, k1⟩ := wbcCall_H0 hC hM h pt nL h8' (by omega) nR0 (by omega)
  rw [hL] at o1
  rw [c1, Option.bind_some, if_neg (by simp)]
  obtain ⟨r0', a1, q1⟩ := o1.addIs' (s := rp) (length_H ..) (by omega)
  rw [a1, Option.bind_some]
  have eR' : Spec.Farfalle.xorFirst R (Spec.Farfalle.H P k (L ++ [false]) nR0) =
      Spec.xorBits ((Bits.ofBytes rp).take nR0) (Spec.Farfalle.H P k (L ++ [false]) nR0) ++ ((Bits.ofBytes rp).take nR).drop nR0 := by
    rw [Spec.Farfalle.xorFirst, length_H, ← hR, List.take_take, Nat.min_eq_left hlR0]
  have hA : (Spec.xorBits ((Bits.ofBytes rp).take nR0) (Spec.Farfalle.H P k (L ++ [false]) nR0)).length = nR0 := by
    rw [length_xorBits, length_H, length_take_ofBytes (by omega), Nat.min_self]
  have lR' := length_xorFirst R (Spec.Farfalle.H P k (L ++ [false]) nR0) (by rw [length_H, lR]; exact hlR0)
  rw [lR] at lR'
  -- tweak
  obtain ⟨kv2, c2, p2⟩ := p1.last hC hM w wLen true false hw hc
  change ∃ kv' ct S', (Farfalle.compress C kv1 w wLen { init := true, last := true, short := false }).bind _ = _ ∧ _
  rw [c2, Option.bind_some, if_neg (by simp)]
  simp only [if_true, List.nil_append, k1] at p2
  generalize (Bits.ofBytes w).take wLen = W at p2 ⊢
  -- second round
  obtain ⟨kv3, lc, hist, c3, o3, p3⟩ := wbcEncL_spec hC hM p2 pt rp r0' nL nR nR0 _ q1 hA hlR0 h8R (by omega) hlp hrp
  rw [c3, Option.bind_some, if_neg (by simp)]
  rw [hL, ← eR'] at o3
  -- third round
  obtain ⟨kv4, rc, hist', c4, o4, p4⟩ := wbcCall_G0 hC hM (Rep.restore hC p2 p3) lc nL h8'
    (by rw [o3.length, length_xorBits, length_G, lL, Nat.min_self]; omega) nR hnRlt
  rw [c4, Option.bind_some, if_neg (by simp)]
  have lL' : (Spec.xorBits L (Spec.Farfalle.G P k W (Spec.Farfalle.xorFirst R (Spec.Farfalle.H P k (L ++ [false]) nR0) ++ [true])
      nL)).length = nL := by rw [length_xorBits, length_G, lL, Nat.min_self]
  rw [List.nil_append] at o4
  obtain ⟨rc', a4, q4⟩ := addIs2_spec' (u := rp) o4 q1 hA (length_G ..) hlR0 h8R hrp
  rw [← eR'] at q4
  rw [a4, Option.bind_some]
  rw [show (Bits.ofBytes lc).take nL = _ from (congrArg (fun z => (Bits.ofBytes lc).take z) lL'.symm).trans o3.take] at q4
  rw [lR']
  generalize Spec.Farfalle.xorFirst R (Spec.Farfalle.H P k (L ++ [false]) nR0) = R' at *
  generalize Spec.xorBits L (Spec.Farfalle.G P k W (R' ++ [true]) nL) = L' at *
  have lR'' : (Spec.xorBits R' (Spec.Farfalle.G P k W (L' ++ [false]) nR)).length = nR := by
    rw [length_xorBits, length_G, lR', Nat.min_self]
  generalize Spec.xorBits R' (Spec.Farfalle.G P k W (L' ++ [false]) nR) = R'' at *
  -- fourth round
  obtain ⟨b, kv5, r5, S5, b5, c5, o5, p5, k5⟩ := wbcCall_H1 hC hM p4 rc' nR (by rw [q4.length, lR'']) nL0 (by omega)
  rw [b5, Option.bind_some, c5, Option.bind_some, if_neg (by simp)]
  rw [← lR'', q4.take] at o5
  obtain ⟨lc', a5, q5⟩ := o3.addIsFirst' o5 (length_H ..) (by omega) (.inl h8L)
  rw [a5, lL', hnL0]
  exact ⟨kv5, lc' ++ rc', S5, rfl, q5.append (by rw [length_xorFirst _ _ (by rw [length_H]; omega), lL', h8']) q4, p5, k5⟩

/-- `Decipher` computes the inverse cipher. -/
theorem wbcDecipher_spec (hC : Valid C) (hM : Matches C P) {kv : Inst} {S : Spec.Farfalle.Obj} (h : Rep C P kv S) (ct : Bytes)
    (n nL : Nat) (hn : (n + 7) / 8 ≤ ct.length) (hlt : n + 7 < 2 ^ 64) (hsp : wbcSplit C n = some nL) (hle : nL ≤ n) (h8 : 8 ∣ nL)
    (w : Bytes) (wLen : Nat) (hw : (wLen + 7) / 8 ≤ w.length) (hc : Clean w wLen) :
    ∃ kv' pt S', wbcDecipher C kv ct n w wLen = some (0, kv', pt) ∧
      Holds pt (Spec.Farfalle.Wbc.decipher P S.k ((Bits.ofBytes w).take wLen) nL ((Bits.ofBytes ct).take n)) ∧
      Rep C P kv' S' ∧ S'.k = S.k := by
  obtain ⟨k, done, cur, m⟩ := S
  have hb8 : C.width * 8 = P.b := by rw [hM.b, Nat.mul_comm]
  have hb0 : P.b % 8 = 0 := by rw [hM.b]; omega
  have h8' : nL % 8 = 0 := Nat.mod_eq_zero_of_dvd h8
  have eL : ((Bits.ofBytes ct).take n).take nL = (Bits.ofBytes ct).take nL := by rw [List.take_take, Nat.min_eq_left hle]
  have eR : ((Bits.ofBytes ct).take n).drop nL = (Bits.ofBytes (ct.drop (nL / 8))).take (n - nL) := by
    rw [List.drop_take, ← Bits.drop_ofBytes, show 8 * (nL / 8) = nL by omega]
  have hlp : (nL + 7) / 8 ≤ ct.length := by omega
  have hrp : (n - nL + 7) / 8 ≤ (ct.drop (nL / 8)).length := by rw [List.length_drop]; omega
  have lL := length_take_ofBytes hlp
  have lR := length_take_ofBytes hrp
  dsimp only [Spec.Farfalle.Wbc.decipher]
  rw [eL, eR]
  have hlR0 : min P.b (n - nL) ≤ n - nL := Nat.min_le_right ..
  have h8R : min P.b (n - nL) % 8 = 0 ∨ min P.b (n - nL) = n - nL := by
    rcases Nat.le_total P.b (n - nL) with hh | hh
    · rw [Nat.min_eq_left hh]; exact .inl hb0
    · rw [Nat.min_eq_right hh]; exact .inr rfl
  have hlL0 : min P.b nL ≤ nL := Nat.min_le_right ..
  have h8L : min P.b nL % 8 = 0 := by
    rcases Nat.le_total P.b nL with hh | hh
    · rw [Nat.min_eq_left hh]; exact hb0
    · rw [Nat.min_eq_right hh]; exact h8'
  have hnRlt : n - nL + 7 < 2 ^ 64 := by omega
  simp (maxSteps := 1000000) only [wbcDecipher, Option.bind_eq_bind]
  rw [hsp, Option.bind_some, sub64 hle (by omega), hb8]
  generalize hL : (Bits.ofBytes ct).take nL = L at lL ⊢
  generalize hrpd : ct.drop (nL / 8) = rc at lR hrp ⊢
  generalize hR : (Bits.ofBytes rc).take (n - nL) = R at lR ⊢
  rw [lL, lR]
  generalize hnR : n - nL = nR at *
  generalize hnR0 : min P.b nR = nR0 at *
  generalize hnL0 : min P.b nL = nL0 at *
  -- first round
  obtain ⟨b, kv1, l0, S1, b1, c1, o1, p1, k1⟩ := wbcCall_H1 hC hM h rc nR hrp nL0 (by omega)
  rw [hR] at o1
  rw [b1, Option.bind_some, c1, Option.bind_some, if_neg (by simp)]
  obtain ⟨l0', a1, q1⟩ := o1.addIs' (s := ct) (length_H ..) (by omega)
  rw [a1, Option.bind_some]
  have eL' : Spec.Farfalle.xorFirst L (Spec.Farfalle.H P k (R ++ [true]) nL0) =
      Spec.xorBits ((Bits.ofBytes ct).take nL0) (Spec.Farfalle.H P k (R ++ [true]) nL0) ++ ((Bits.ofBytes ct).take nL).drop nL0 := by
    rw [Spec.Farfalle.xorFirst, length_H, ← hL, List.take_take, Nat.min_eq_left hlL0]
  have hA : (Spec.xorBits ((Bits.ofBytes ct).take nL0) (Spec.Farfalle.H P k (R ++ [true]) nL0)).length = nL0 := by
    rw [length_xorBits, length_H, length_take_ofBytes (by omega), Nat.min_self]
  have lL' := length_xorFirst L (Spec.Farfalle.H P k (R ++ [true]) nL0) (by rw [length_H, lL]; exact hlL0)
  rw [lL] at lL'
  -- tweak
  obtain ⟨kv2, c2, p2⟩ := p1.last hC hM w wLen true false hw hc
  change ∃ kv' ct S', (Farfalle.compress C kv1 w wLen { init := true, last := true, short := false }).bind _ = _ ∧ _
  rw [c2, Option.bind_some, if_neg (by simp)]
  simp only [if_true, List.nil_append, k1] at p2
  generalize (Bits.ofBytes w).take wLen = W at p2 ⊢
  -- second round
  obtain ⟨kv3, c3, p3⟩ := p2.piece hC hM l0' nL0 false h8L (by rw [q1.length, hA]; omega)
  change ∃ kv' ct S', (Farfalle.compress C kv2 l0' nL0 { init := false }).bind _ = _ ∧ _
  rw [c3, Option.bind_some, if_neg (by simp)]
  simp only [Bool.false_eq_true, if_false, List.nil_append] at p3
  rw [show (Bits.ofBytes l0').take nL0 = _ from (congrArg (fun z => (Bits.ofBytes l0').take z) hA.symm).trans q1.take] at p3
  obtain ⟨kv4, rp, hist, c4, o4, p4⟩ := wbcCall_G0 hC hM p3 (ct.drop (nL0 / 8)) (nL - nL0) (by omega)
    (by rw [List.length_drop]; omega) nR hnRlt
  rw [c4, Option.bind_some, if_neg (by simp)]
  rw [← Bits.drop_ofBytes, show 8 * (nL0 / 8) = nL0 by omega, ← List.drop_take, ← eL'] at o4
  obtain ⟨rp', a4, q4⟩ := o4.addIs' (s := rc) (length_G ..) hrp
  rw [a4, Option.bind_some]
  rw [hR] at q4
  -- third round
  have lR' : (Spec.xorBits R (Spec.Farfalle.G P k W (Spec.Farfalle.xorFirst L (Spec.Farfalle.H P k (R ++ [true]) nL0) ++ [false])
      nR)).length = nR := by rw [length_xorBits, length_G, lR, Nat.min_self]
  obtain ⟨b', kv5, lp, hist', b5, c5, o5, p5⟩ := wbcCall_G1 hC hM (Rep.restore hC p2 p4) rp' 0 nR (by omega) (by omega)
    (by rw [q4.length, lR']) nL (by omega)
  rw [Nat.sub_zero, Nat.zero_div, List.drop_zero] at c5
  rw [b5, Option.bind_some, c5, Option.bind_some, if_neg (by simp)]
  rw [List.nil_append, List.drop_zero,
    show (Bits.ofBytes rp').take nR = _ from (congrArg (fun z => (Bits.ofBytes rp').take z) lR'.symm).trans q4.take] at o5
  obtain ⟨lp', a5, q5⟩ := addIs2_spec' (u := ct) o5 q1 hA (length_G ..) hlL0 (.inl h8L) hlp
  rw [← eL'] at q5
  rw [a5, Option.bind_some, lL']
  generalize Spec.Farfalle.xorFirst L (Spec.Farfalle.H P k (R ++ [true]) nL0) = L' at *
  generalize Spec.xorBits R (Spec.Farfalle.G P k W (L' ++ [false]) nR) = R' at *
  have lL'' : (Spec.xorBits L' (Spec.Farfalle.G P k W (R' ++ [true]) nL)).length = nL := by
    rw [length_xorBits, length_G, lL', Nat.min_self]
  generalize Spec.xorBits L' (Spec.Farfalle.G P k W (R' ++ [true]) nL) = L'' at *
  -- fourth round
  obtain ⟨kv6, r6, S6, c6, o6, p6, k6⟩ := wbcCall_H0 hC hM p5 lp' nL h8' (by rw [q5.length, lL'']; omega) nR0 (by omega)
  rw [c6, Option.bind_some, if_neg (by simp)]
  rw [← lL'', q5.take] at o6
  obtain ⟨rp'', a6, q6⟩ := q4.addIsFirst' o6 (length_H ..) (by omega) (by omega)
  rw [a6, lR', hnR0]
  exact ⟨kv6, lp' ++ rp'', S6, rfl, q5.append (by rw [lL'', h8']) q6, p6, k6⟩

/-! ## The two ciphers are inverses -/

theorem length_encipher (k W : Bits) (nL : Nat) (M : Bits) : (Spec.Farfalle.Wbc.encipher P k W nL M).length = M.length := by
  dsimp only [Spec.Farfalle.Wbc.encipher]
  rw [List.length_append, length_xorFirst, length_xorBits, length_xorBits, length_G, length_G, length_xorFirst,
    List.length_take, List.length_drop]
  · omega
  · rw [length_H]; exact Nat.min_le_right ..
  · rw [length_H]; exact Nat.min_le_right ..

/-- The four rounds on the two parts, and back. -/
theorem decipher_encipher (k W : Bits) (nL : Nat) (M : Bits) (hle : nL ≤ M.length) :
    Spec.Farfalle.Wbc.decipher P k W nL (Spec.Farfalle.Wbc.encipher P k W nL M) = M := by
  have lL : (M.take nL).length = nL := by rw [List.length_take]; omega
  dsimp only [Spec.Farfalle.Wbc.encipher]
  conv_rhs => rw [← List.take_append_drop nL M]
  generalize M.take nL = L at *
  generalize M.drop nL = R at *
  rw [lL]
  have l1 := length_xorFirst R (Spec.Farfalle.H P k (L ++ [false]) (min P.b R.length)) (by rw [length_H]; exact Nat.min_le_right ..)
  have c1 := xorFirst_cancel R (Spec.Farfalle.H P k (L ++ [false]) (min P.b R.length)) (by rw [length_H]; exact Nat.min_le_right ..)
  rw [l1]
  generalize Spec.Farfalle.xorFirst R (Spec.Farfalle.H P k (L ++ [false]) (min P.b R.length)) = R1 at *
  have c2 := xorBits_cancel L (Spec.Farfalle.G P k W (R1 ++ [true]) nL) (by rw [length_G, lL])
  have l2 : (Spec.xorBits L (Spec.Farfalle.G P k W (R1 ++ [true]) nL)).length = nL := by
    rw [length_xorBits, length_G, lL, Nat.min_self]
  generalize Spec.xorBits L (Spec.Farfalle.G P k W (R1 ++ [true]) nL) = L1 at *
  have c3 := xorBits_cancel R1 (Spec.Farfalle.G P k W (L1 ++ [false]) R.length) (by rw [length_G, l1])
  have l3 : (Spec.xorBits R1 (Spec.Farfalle.G P k W (L1 ++ [false]) R.length)).length = R.length := by
    rw [length_xorBits, length_G, l1, Nat.min_self]
  generalize Spec.xorBits R1 (Spec.Farfalle.G P k W (L1 ++ [false]) R.length) = R2 at *
  rw [l2]
  have c4 := xorFirst_cancel L1 (Spec.Farfalle.H P k (R2 ++ [true]) (min P.b nL)) (by rw [length_H, l2]; exact Nat.min_le_right ..)
  have l4 := length_xorFirst L1 (Spec.Farfalle.H P k (R2 ++ [true]) (min P.b nL)) (by rw [length_H, l2]; exact Nat.min_le_right ..)
  rw [l2] at l4
  generalize Spec.Farfalle.xorFirst L1 (Spec.Farfalle.H P k (R2 ++ [true]) (min P.b nL)) = L2 at *
  dsimp only [Spec.Farfalle.Wbc.decipher]
  rw [List.take_append_of_le_length (by omega), List.take_of_length_le (by omega), List.drop_append_of_le_length (by omega),
    List.drop_of_length_le (l := L2) (by omega), List.nil_append, l4, l3, c4, c3, l2, c2, l1, c1]

/-- The four rounds back, and forward. -/
theorem encipher_decipher (k W : Bits) (nL : Nat) (M : Bits) (hle : nL ≤ M.length) :
    Spec.Farfalle.Wbc.encipher P k W nL (Spec.Farfalle.Wbc.decipher P k W nL M) = M := by
  have lL : (M.take nL).length = nL := by rw [List.length_take]; omega
  dsimp only [Spec.Farfalle.Wbc.decipher]
  conv_rhs => rw [← List.take_append_drop nL M]
  generalize M.take nL = L at *
  generalize M.drop nL = R at *
  rw [lL]
  have c1 := xorFirst_cancel L (Spec.Farfalle.H P k (R ++ [true]) (min P.b nL)) (by rw [length_H, lL]; exact Nat.min_le_right ..)
  have l1 := length_xorFirst L (Spec.Farfalle.H P k (R ++ [true]) (min P.b nL)) (by rw [length_H, lL]; exact Nat.min_le_right ..)
  rw [lL] at l1
  generalize Spec.Farfalle.xorFirst L (Spec.Farfalle.H P k (R ++ [true]) (min P.b nL)) = L1 at *
  have c2 := xorBits_cancel R (Spec.Farfalle.G P k W (L1 ++ [false]) R.length) (by rw [length_G])
  have l2 : (Spec.xorBits R (Spec.Farfalle.G P k W (L1 ++ [false]) R.length)).length = R.length := by
    rw [length_xorBits, length_G, Nat.min_self]
  generalize Spec.xorBits R (Spec.Farfalle.G P k W (L1 ++ [false]) R.length) = R1 at *
  rw [l1]
  have c3 := xorBits_cancel L1 (Spec.Farfalle.G P k W (R1 ++ [true]) nL) (by rw [length_G, l1])
  have l3 : (Spec.xorBits L1 (Spec.Farfalle.G P k W (R1 ++ [true]) nL)).length = nL := by
    rw [length_xorBits, length_G, l1, Nat.min_self]
  generalize Spec.xorBits L1 (Spec.Farfalle.G P k W (R1 ++ [true]) nL) = L2 at *
  rw [l2]
  have c4 := xorFirst_cancel R1 (Spec.Farfalle.H P k (L2 ++ [false]) (min P.b R.length)) (by rw [length_H, l2]; exact Nat.min_le_right ..)
  have l4 := length_xorFirst R1 (Spec.Farfalle.H P k (L2 ++ [false]) (min P.b R.length)) (by rw [length_H, l2]; exact Nat.min_le_right ..)
  rw [l2] at l4
  generalize Spec.Farfalle.xorFirst R1 (Spec.Farfalle.H P k (L2 ++ [false]) (min P.b R.length)) = R2 at *
  dsimp only [Spec.Farfalle.Wbc.encipher]
  rw [List.take_append_of_le_length (by omega), List.take_of_length_le (by omega), List.drop_append_of_le_length (by omega),
    List.drop_of_length_le (l := L2) (by omega), List.nil_append, l4, l3, c4, c3, l2, c2, l1, c1]

theorem length_decipher (k W : Bits) (nL : Nat) (M : Bits) (hle : nL ≤ M.length) :
    (Spec.Farfalle.Wbc.decipher P k W nL M).length = M.length := by
  rw [← length_encipher k W nL (Spec.Farfalle.Wbc.decipher P k W nL M), encipher_decipher k W nL M hle]

end Farfalle
