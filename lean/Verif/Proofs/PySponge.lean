import Verif.Proofs.PyFIPS202
import Verif.Proofs.CompactSponge

/-!
The sponge function of the standalone Python implementations is the byte machine.
-/

namespace Py202

open KeccakP1600 (loopM)
open Compact202 (bind_ok loopM_inv Perm)
open Sponge (absorbAll squeezeAll finish)

variable {P : SnP} {f : Bytes → Option Bytes}

theorem index_nat {n k : Nat} (h : k < n) : index n (k : Int) = some k := by
  rw [index, if_pos (by omega)]; rfl

theorem getB_nat (b : Bytes) {k : Nat} (h : k < b.length) : getB b (k : Int) = some b[k] := by
  rw [getB, index_nat h, Option.bind_some, List.getElem?_eq_getElem h]

theorem xorB_eq (s : Bytes) {k : Nat} (h : k < s.length) (v : Byte) :
    xorB s (k : Int) (v.toNat : Int) = some (Bytes.xorAt s k [v]) := by
  have e : Int.xor ((s[k]).toNat : Int) (v.toNat : Int) = (((s[k] ^^^ v).toNat : Nat) : Int) := by
    rw [xor_nat, BitVec.toNat_xor]
  have hl := (s[k] ^^^ v).isLt
  rw [xorB, getB_nat s h, Option.bind_some, e, putB, index_nat h, Option.bind_some, if_pos (by omega), BitVec.ofInt_natCast,
    BitVec.ofNat_toNat, BitVec.setWidth_eq, Compact202.set_eq_xorAt _ _ _ _ (List.getElem?_eq_getElem h)]

theorem permuteIf_eq (hf : Perm P f) (c : Bool) {s : Bytes} (hs : s.length = 200) :
    permuteIf f c s = some (if c then P.permute s else s) :=
  Compact202.permuteIf_eq hf c hs

theorem xorInput_eq (input : Bytes) (p n : Nat) (s : Bytes) (hp : p + n ≤ input.length) (hn : n ≤ s.length) :
    loopM (fun i s => (getB input ((i : Int) + (p : Int))).bind fun v => xorB s (i : Int) (v.toNat : Int)) 0 n s =
      some (Bytes.xorAt s 0 (Bytes.slice input p n)) := by
  obtain ⟨t, e, ht⟩ := loopM_inv (fun i s => (getB input ((i : Int) + (p : Int))).bind fun v => xorB s (i : Int) (v.toNat : Int))
    (fun i t => t = Bytes.xorAt s 0 ((Bytes.slice input p n).take i)) n 0 s (by simp) (by
      intro i t h1 h2 h3
      subst h3
      have hi : p + i < input.length := by omega
      have hc : (i : Int) + (p : Int) = ((p + i : Nat) : Int) := by omega
      refine ⟨_, by rw [hc, getB_nat input hi, Option.bind_some, xorB_eq _ (by simp; omega)], ?_⟩
      rw [Compact202.take_slice_succ _ _ _ _ (by omega) (by omega)]
      have := Bytes.xorAt_append s 0 ((Bytes.slice input p n).take i) [input[p + i]]
      rw [List.length_take, Bytes.length_slice_of_le hp, Nat.min_eq_left (by omega), Nat.zero_add] at this
      exact this)
  rw [e, ht, List.take_of_length_le (by rw [Bytes.length_slice_of_le hp]; omega)]

theorem absorb_done (R : Int) (input : Bytes) (fuel : Nat) (s : Bytes) (b : Int) (off : Nat) (h : input.length ≤ off) :
    absorb f R input (fuel + 1) s off b = some (s, b) := by
  rw [absorb, if_neg (by omega)]

theorem absorb_eq (hf : Perm P f) {R : Nat} (hR : 0 < R) (hR' : R ≤ 200) (input : Bytes) :
    ∀ (fuel : Nat) (s : Bytes) (off : Nat), input.length - off < fuel → off ≤ input.length → s.length = 200 →
      absorb f (R : Int) input fuel s (off : Int) 0 =
        some ((absorbAll P R (s, 0) (input.drop off)).1, ((absorbAll P R (s, 0) (input.drop off)).2 : Int)) := by
  intro fuel
  induction fuel with
  | zero => intro s off h; omega
  | succ fuel ih =>
    intro s off hl hp hs
    rw [absorb]
    by_cases h0 : off < input.length
    · rw [if_pos (by omega)]
      obtain ⟨n, hn⟩ : ∃ n, min (input.length - off) R = n := ⟨_, rfl⟩
      have hb : min ((input.length : Int) - (off : Int)) (R : Int) = (n : Int) := by omega
      have hx := xorInput_eq input off n s (by omega) (by omega)
      have hlen : (Bytes.slice input off n).length = n := Bytes.length_slice_of_le (by omega)
      have hxl : (Bytes.xorAt s 0 (Bytes.slice input off n)).length = 200 := by rw [Bytes.length_xorAt, hs]
      simp only [hb, Int.toNat_natCast]
      refine bind_ok hx (bind_ok (permuteIf_eq hf _ hxl) ?_)
      have hoff : (off : Int) + (n : Int) = ((off + n : Nat) : Int) := by omega
      rw [hoff]
      by_cases h1 : n = R
      · have e : input.drop off = Bytes.slice input off n ++ input.drop (off + n) := by
          rw [Bytes.slice, ← List.drop_drop, List.take_append_drop]
        subst h1
        simp only [decide_true, if_true]
        rw [ih _ _ (by omega) (by omega) (hf.len hxl), e, Sponge.absorbAll_append,
          Sponge.absorbAll_fill n s 0 (Bytes.slice input off n) (by intro h; rw [h] at hlen; simp at hlen; omega) (by omega)]
      · have hni : ¬ (n : Int) = (R : Int) := by omega
        simp only [hni, decide_false, if_false, Bool.false_eq_true]
        obtain ⟨fu, rfl⟩ : ∃ fu, fuel = fu + 1 := ⟨fuel - 1, by omega⟩
        have e : input.drop off = Bytes.slice input off n := by
          rw [Bytes.slice, List.take_of_length_le (by rw [List.length_drop]; omega)]
        rw [absorb_done _ _ _ _ _ _ (by omega), e, Sponge.absorbAll_lt _ _ _ _ (by omega), hlen, Nat.zero_add]
    · rw [if_neg (by omega), List.drop_eq_nil_of_le (by omega)]
      rfl

theorem land_eq (d : Byte) : Int.land (d.toNat : Int) 0x80 ≠ 0 ↔ (d &&& 0x80) ≠ 0 := by
  have h : Int.land (d.toNat : Int) 0x80 = (((d &&& 0x80).toNat : Nat) : Int) := by
    rw [BitVec.toNat_and]; rfl
  rw [h, ne_eq, ne_eq, Int.natCast_eq_zero, ← BitVec.toNat_inj]
  rfl

theorem pad_eq (hf : Perm P f) {R : Nat} (hR : 0 < R) (hR' : R ≤ 200) (d : Byte) (s : Bytes) (hs : s.length = 200) (b : Nat)
    (hb : b < R) : pad f (R : Int) (d.toNat : Int) s (b : Int) = some (finish P R (s, b) d) := by
  have h0 : (Bytes.xorAt s b [d]).length = 200 := by rw [Bytes.length_xorAt, hs]
  have hRi : (R : Int) - 1 = ((R - 1 : Nat) : Int) := by omega
  have h80 : (0x80 : Int) = ((0x80 : Byte).toNat : Int) := rfl
  have hc : decide (Int.land (d.toNat : Int) 0x80 ≠ 0 ∧ (b : Int) = ((R - 1 : Nat) : Int)) =
      decide ((d &&& 0x80) ≠ 0 ∧ b = R - 1) := by
    rw [decide_eq_decide, land_eq, Int.natCast_inj]
  unfold pad
  rw [hRi]
  refine bind_ok (xorB_eq s (by omega) d) ?_
  rw [hc]
  refine bind_ok (permuteIf_eq hf _ h0) ?_
  have hs1 : (if decide ((d &&& 0x80) ≠ 0 ∧ b = R - 1) = true then P.permute (Bytes.xorAt s b [d]) else Bytes.xorAt s b [d]).length
      = 200 := by
    split
    · exact hf.len h0
    · exact h0
  rw [h80]
  refine bind_ok (xorB_eq _ (by omega) _) ?_
  rw [hf.eq _ (by rw [Bytes.length_xorAt]; exact hs1)]
  unfold finish
  simp only [Compact202.msb_iff, decide_eq_true_eq]

theorem squeeze_eq (hf : Perm P f) {R : Nat} (hR : 0 < R) (hR' : R ≤ 200) : ∀ (fuel : Nat) (s o : Bytes) (len : Nat),
    len < fuel → s.length = 200 →
    squeeze f (R : Int) fuel s o (len : Int) = some (o ++ (squeezeAll P R len (s, 0)).2) := by
  intro fuel
  induction fuel with
  | zero => intro s o len h; omega
  | succ fuel ih =>
    intro s o len hl hs
    rw [squeeze]
    by_cases h0 : len > 0
    · rw [if_pos (by omega)]
      obtain ⟨n, hn⟩ : ∃ n, min len R = n := ⟨_, rfl⟩
      have hb : min (len : Int) (R : Int) = (n : Int) := by omega
      have hd : (len : Int) - (n : Int) = ((len - n : Nat) : Int) := by omega
      have hu : upTo s (n : Int) = s.take n := by rw [upTo, if_pos (by omega)]; rfl
      simp only [hb, hd, hu]
      refine bind_ok (permuteIf_eq hf _ hs) ?_
      have hblock := Sponge.squeezeAll_block (P := P) R n s 0 (by omega) (by omega)
      have hsl : Bytes.slice s 0 n = s.take n := by simp [Bytes.slice]
      rw [Nat.zero_add, hsl] at hblock
      by_cases h2 : len - n > 0
      · have hnR : n = R := by omega
        have h2' : ((len - n : Nat) : Int) > 0 := by omega
        simp only [h2', decide_true, if_true]
        rw [ih _ _ _ (by omega) (hf.len hs), List.append_assoc]
        obtain ⟨m, hm⟩ : ∃ m, len - n = m + 1 := ⟨len - n - 1, by omega⟩
        have e := Sponge.squeezeAll_add (P := P) R n (m + 1) (s, 0)
        rw [hblock] at e
        simp only at e
        rw [hnR, Sponge.squeezeAll_full _ _ (by omega)] at e
        rw [hm, show len = n + (m + 1) by omega, hnR, e]
      · have hn' : n = len := by omega
        obtain ⟨fu, rfl⟩ : ∃ fu, fuel = fu + 1 := ⟨fuel - 1, by omega⟩
        rw [squeeze, if_neg (by omega), ← hn', hblock]
    · have : len = 0 := by omega
      subst this
      rw [if_neg (by omega)]
      simp only [squeezeAll, List.append_nil]

/-- A negative length is as good as zero. -/
theorem squeeze_neg (R : Int) (fuel : Nat) (s o : Bytes) (len : Int) (h : len ≤ 0) : squeeze f R (fuel + 1) s o len = some o := by
  rw [squeeze, if_neg (by omega)]

/-- The whole function returns the output of the byte machine. -/
theorem keccak_eq (hf : Perm P f) {R : Nat} (hR : 0 < R) (hR' : R ≤ 200) (fuel : Nat) (input : Bytes) (d : Byte) (len : Int)
    (h1 : input.length < fuel) (h2 : len < (fuel : Int)) :
    keccak f fuel (8 * (R : Int)) (1600 - 8 * (R : Int)) input (d.toNat : Int) len =
      some (some (squeezeAll P R len.toNat (finish P R (absorbAll P R (P.init, 0) input) d, 0)).2) := by
  have hi : P.init.length = 200 := by rw [SnP.init]; simp [hf.width]
  have hi' : (List.replicate 200 0 : Bytes) = P.init := by rw [SnP.init, hf.width]; rfl
  have hl := Sponge.absorbAll_len hf.valid R (P.init, 0) input (by rw [hi, hf.width])
  rw [hf.width] at hl
  have hfin := Sponge.finish_len hf.valid R (absorbAll P R (P.init, 0) input) (by rw [hl, hf.width]) d
  rw [hf.width] at hfin
  have ha := absorb_eq hf hR hR' input fuel P.init 0 (by omega) (by omega) hi
  rw [List.drop_zero] at ha
  have hq : squeeze f (R : Int) fuel (finish P R (absorbAll P R (P.init, 0) input) d) [] len =
      some (squeezeAll P R len.toNat (finish P R (absorbAll P R (P.init, 0) input) d, 0)).2 := by
    by_cases h : 0 ≤ len
    · obtain ⟨n, rfl⟩ := Int.eq_ofNat_of_zero_le h
      rw [squeeze_eq hf hR hR' fuel _ [] n (by omega) hfin, List.nil_append]; rfl
    · obtain ⟨fu, rfl⟩ : ∃ fu, fuel = fu + 1 := ⟨fuel - 1, by omega⟩
      rw [squeeze_neg _ _ _ _ _ (by omega), show len.toNat = 0 by omega]
      simp only [squeezeAll]
  unfold keccak
  rw [if_neg (by omega), hi', show 8 * (R : Int) / 8 = (R : Int) by omega]
  exact bind_ok ha (bind_ok (pad_eq hf hR hR' d _ hl _ (Sponge.absorbAll_idx _ _ _ hR)) (bind_ok hq rfl))

/-! ## Corners -/

theorem absorb_stuck {R : Int} (hR : R ≤ 0) (input : Bytes) (h : input ≠ []) (hf : ∀ s : Bytes, s.length = 200 → ∃ t : Bytes,
    f s = some t ∧ t.length = 200) : ∀ (fuel : Nat) (s : Bytes) (off b : Int), s.length = 200 → off ≤ 0 →
      absorb f R input fuel s off b = none := by
  have hn : 0 < input.length := List.length_pos_iff.2 h
  intro fuel
  induction fuel with
  | zero => intro s off b _ _; rfl
  | succ fuel ih =>
    intro s off b hs ho
    have hm : min ((input.length : Int) - off) R = R := by omega
    obtain ⟨t, ht, htl⟩ := hf s hs
    rw [absorb, if_pos (by omega)]
    simp only [hm, decide_true, if_true]
    have h0 : R.toNat = 0 := by omega
    rw [h0]
    exact bind_ok (show loopM _ 0 0 s = some s from rfl) (bind_ok (show permuteIf f true s = some t from ht)
      (ih t _ _ htl (by omega)))

theorem squeeze_stuck {R : Int} (hR : R ≤ 0) (hf : ∀ s : Bytes, s.length = 200 → ∃ t : Bytes,
    f s = some t ∧ t.length = 200) : ∀ (fuel : Nat) (s o : Bytes) (len : Int), s.length = 200 → 0 < len →
      squeeze f R fuel s o len = none := by
  intro fuel
  induction fuel with
  | zero => intro s o len _ _; rfl
  | succ fuel ih =>
    intro s o len hs ho
    have hm : min len R = R := by omega
    obtain ⟨t, ht, htl⟩ := hf s hs
    rw [squeeze, if_pos ho]
    have hp : len - R > 0 := by omega
    simp only [hm, hp, decide_true]
    exact bind_ok (show permuteIf f true s = some t from ht) (ih t _ _ htl (by omega))

theorem putB_len {b t : Bytes} {i v : Int} (h : putB b i v = some t) : t.length = b.length := by
  rw [putB] at h
  cases hk : index b.length i with
  | none => rw [hk] at h; cases h
  | some k =>
    rw [hk, Option.bind_some] at h
    split at h
    · cases h; exact List.length_set
    · cases h

theorem xorB_len {b t : Bytes} {i v : Int} (h : xorB b i v = some t) : t.length = b.length := by
  rw [xorB] at h
  cases hk : getB b i with
  | none => rw [hk] at h; cases h
  | some k =>
    rw [hk, Option.bind_some] at h
    exact putB_len h

theorem loopM_len {g : Nat → Bytes → Option Bytes} (hg : ∀ i s t, g i s = some t → t.length = s.length) :
    ∀ (n a : Nat) (s t : Bytes), loopM g a n s = some t → t.length = s.length := by
  intro n
  induction n with
  | zero => intro a s t h; cases h; rfl
  | succ n ih =>
    intro a s t h
    rw [loopM] at h
    cases hk : g a s with
    | none => rw [hk] at h; cases h
    | some u =>
      rw [hk] at h
      rw [ih _ u t h, hg _ _ _ hk]

/-- The permutation keeps the length. -/
def Keeps (f : Bytes → Option Bytes) : Prop := ∀ s : Bytes, s.length = 200 → ∃ t : Bytes, f s = some t ∧ t.length = 200

theorem Keeps.of (hf : Perm P f) : Keeps f := fun s hs => ⟨_, hf.eq s hs, hf.len hs⟩

theorem permuteIf_len (hf : Keeps f) {c : Bool} {s t : Bytes} (hs : s.length = 200) (h : permuteIf f c s = some t) :
    t.length = 200 := by
  rw [permuteIf] at h
  cases c
  · cases h; exact hs
  · obtain ⟨u, hu, hl⟩ := hf s hs
    simp only [if_true] at h
    rw [hu] at h; cases h; exact hl

theorem absorb_len (hf : Keeps f) (R : Int) (input : Bytes) : ∀ (fuel : Nat) (s : Bytes) (off b : Int) (r : Bytes × Int),
    s.length = 200 → absorb f R input fuel s off b = some r → r.1.length = 200 := by
  intro fuel
  induction fuel with
  | zero => intro s off b r _ h; cases h
  | succ fuel ih =>
    intro s off b r hs h
    rw [absorb] at h
    split at h
    · simp only at h
      obtain ⟨t, h1, h⟩ := Option.bind_eq_some_iff.1 h
      obtain ⟨u, h2, h⟩ := Option.bind_eq_some_iff.1 h
      have ht : t.length = 200 := by
        rw [loopM_len _ _ _ _ _ h1, hs]
        intro i s t h
        cases hk : getB input (↑i + off) with
        | none => rw [hk] at h; cases h
        | some v => rw [hk, Option.bind_some] at h; exact xorB_len h
      exact ih u _ _ r (permuteIf_len hf ht h2) h
    · cases h; exact hs

/-- A rate above 200 bytes: the padding is outside the state. -/
theorem pad_high (hf : Keeps f) {R : Int} (hR : 200 < R) (suffix : Int) (s : Bytes) (hs : s.length = 200) (b : Int) :
    pad f R suffix s b = none := by
  cases h : pad f R suffix s b with
  | none => rfl
  | some r =>
    exfalso
    rw [pad] at h
    obtain ⟨t, h1, h⟩ := Option.bind_eq_some_iff.1 h
    obtain ⟨u, h2, h⟩ := Option.bind_eq_some_iff.1 h
    obtain ⟨v, h3, h⟩ := Option.bind_eq_some_iff.1 h
    have ht : t.length = 200 := by rw [xorB_len h1, hs]
    have hu := permuteIf_len hf ht h2
    rw [xorB, getB, index, hu, if_neg (by omega), if_neg (by omega)] at h3
    cases h3

/-- A suffix that is not a byte cannot be stored. -/
theorem xorB_bad (s : Bytes) (i suffix : Int) (h : suffix < 0 ∨ 256 ≤ suffix) : xorB s i suffix = none := by
  rw [xorB]
  cases hk : getB s i with
  | none => rfl
  | some a =>
    rw [Option.bind_some, putB]
    cases index s.length i with
    | none => rfl
    | some k =>
      rw [Option.bind_some, if_neg]
      rintro ⟨h1, h2⟩
      cases suffix with
      | ofNat n =>
        have e : Int.xor (a.toNat : Int) (Int.ofNat n) = ((a.toNat ^^^ n : Nat) : Int) := rfl
        rw [e] at h1 h2
        have hn : 256 ≤ n := by
          rcases h with h | h
          · exact absurd h (by simp)
          · exact Int.ofNat_le.1 h
        have h3 : a.toNat ^^^ n < 2 ^ 8 := by omega
        have h4 := Nat.xor_lt_two_pow a.isLt h3
        rw [← Nat.xor_assoc, Nat.xor_self, Nat.zero_xor] at h4
        omega
      | negSucc n =>
        have e : Int.xor (a.toNat : Int) (Int.negSucc n) = Int.negSucc (a.toNat ^^^ n) := rfl
        rw [e] at h1
        exact absurd h1 (by simp [Int.negSucc_not_nonneg])

/-- With a rate that is not positive, only the empty message with an empty output ends. -/
theorem keccak_low (hf : Keeps f) (fuel : Nat) (R : Int) (hR : R ≤ 0) (hR' : -199 ≤ R) (d : Byte) (len : Int) (hl : len ≤ 0) :
    keccak f (fuel + 1) (8 * R) (1600 - 8 * R) [] (d.toNat : Int) len = some (some []) := by
  unfold keccak
  rw [if_neg (by omega), show 8 * R / 8 = R by omega]
  have hz : (List.replicate 200 0 : Bytes).length = 200 := by rw [List.length_replicate]
  generalize (List.replicate 200 0 : Bytes) = z at hz
  have h1 : xorB z ((0 : Nat) : Int) (d.toNat : Int) = some (Bytes.xorAt z 0 [d]) := xorB_eq z (by omega) d
  have hx : (Bytes.xorAt z 0 [d]).length = 200 := by rw [Bytes.length_xorAt, hz]
  have hidx : index 200 (R - 1) = some (R - 1 + 200).toNat := by
    rw [index, if_neg (by omega), if_pos (by omega)]; rfl
  obtain ⟨k, hk⟩ : ∃ k, (R - 1 + 200).toNat = k := ⟨_, rfl⟩
  have h2 : ∃ t, xorB (Bytes.xorAt z 0 [d]) (R - 1) 0x80 = some t ∧ t.length = 200 := by
    generalize Bytes.xorAt z 0 [d] = y at hx
    have hky : k < y.length := by omega
    have e : ∀ a : Byte, 0 ≤ Int.xor (a.toNat : Int) 0x80 ∧ Int.xor (a.toNat : Int) 0x80 < 256 := by decide +kernel
    have h := e y[k]
    refine ⟨y.set k (BitVec.ofInt 8 (Int.xor (y[k].toNat : Int) 0x80)), ?_, by rw [List.length_set, hx]⟩
    rw [xorB, getB, hx, hidx, hk, Option.bind_some, List.getElem?_eq_getElem hky, Option.bind_some, putB, hx, hidx, hk,
      Option.bind_some, if_pos h]
  obtain ⟨t, ht, htl⟩ := h2
  obtain ⟨u, hu, hul⟩ := hf t htl
  have hp : pad f R (d.toNat : Int) z 0 = some u := by
    unfold pad
    refine bind_ok h1 (bind_ok (a := Bytes.xorAt z 0 [d]) ?_ (bind_ok ht hu))
    have : ¬ ((d.toNat : Int).land 0x80 ≠ 0 ∧ (0 : Int) = R - 1) := by omega
    rw [decide_eq_false this]; rfl
  refine bind_ok (show absorb f R [] (fuel + 1) z 0 0 = some (z, 0) from rfl) (bind_ok hp
    (bind_ok (squeeze_neg R fuel u [] len hl) rfl))

end Py202
