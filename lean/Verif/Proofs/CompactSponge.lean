import Verif.Proofs.CompactFIPS202
import Verif.Proofs.SpongeSpec
import Verif.Props.KeccakP

/-!
The sponge functions of the standalone compact implementations are the byte machine of `SpongeMachine`.
-/

namespace Compact202

open KeccakP1600 (Lane Lanes loopFrom put loopM bytesOfLanes lanesOfBytes bytesOfWord byteOf)
open Sponge (absorbAll squeezeAll finish padTail)

variable {P : SnP}

/-! ## Loops over bytes -/

theorem take_slice_succ (b : Bytes) (p n i : Nat) (hi : i < n) (h : p + i < b.length) :
    (Bytes.slice b p n).take (i + 1) = (Bytes.slice b p n).take i ++ [b[p + i]] := by
  rw [List.take_add_one, Bytes.getElem?_slice, if_pos hi, List.getElem?_eq_getElem h]; rfl

theorem xorByte_eq (s : Bytes) (p : Nat) (b : Byte) (h : p < s.length) : xorByte s p b = some (Bytes.xorAt s p [b]) := by
  rw [xorByte, List.getElem?_eq_getElem h, Option.map_some, set_eq_xorAt _ _ _ _ (List.getElem?_eq_getElem h)]

theorem xorInput_eq (input : Bytes) (p n : Nat) (s : Bytes) (hp : p + n ≤ input.length) (hn : n ≤ s.length) :
    xorInput input p n s = some (Bytes.xorAt s 0 (Bytes.slice input p n)) := by
  obtain ⟨t, e, ht⟩ := loopM_inv (fun i s => (input[p + i]?).bind fun b => xorByte s i b)
    (fun i t => t = Bytes.xorAt s 0 ((Bytes.slice input p n).take i)) n 0 s (by simp) (by
      intro i t h1 h2 h3
      subst h3
      refine ⟨_, by rw [List.getElem?_eq_getElem (by omega), Option.bind_some, xorByte_eq _ _ _ (by simp; omega)], ?_⟩
      rw [take_slice_succ _ _ _ _ (by omega) (by omega)]
      have := Bytes.xorAt_append s 0 ((Bytes.slice input p n).take i) [input[p + i]]
      rw [List.length_take, Bytes.length_slice_of_le hp, Nat.min_eq_left (by omega), Nat.zero_add] at this
      exact this)
  rw [xorInput, e, ht, List.take_of_length_le (by rw [Bytes.length_slice_of_le hp]; omega)]

theorem copyOut_eq (s : Bytes) (n : Nat) (o : Bytes) (p : Nat) (hn : n ≤ s.length) (hp : p + n ≤ o.length) :
    copyOut s n o p = some (Bytes.setAt o p (s.take n)) := by
  obtain ⟨t, e, ht⟩ := loopM_inv (fun i o => (s[i]?).bind fun b => if p + i < o.length then some (o.set (p + i) b) else none)
    (fun i t => t = Bytes.setAt o p (s.take i)) n 0 o (by simp) (by
      intro i t h1 h2 h3
      subst h3
      refine ⟨_, by rw [List.getElem?_eq_getElem (by omega), Option.bind_some, if_pos (by simp; omega)], ?_⟩
      rw [set_eq_setAt, List.take_add_one, List.getElem?_eq_getElem (by omega)]
      have := Bytes.setAt_append o p (s.take i) [s[i]]
      rw [List.length_take, Nat.min_eq_left (by omega)] at this
      exact this)
  rw [copyOut, e, ht, Nat.zero_add]

/-! ## The sponge on bytes -/

/-- What is needed about the permutation. -/
structure Perm (P : SnP) (f : Bytes → Option Bytes) : Prop where
  valid : P.Valid
  width : P.width = 200
  eq : ∀ s : Bytes, s.length = 200 → f s = some (P.permute s)

variable {f : Bytes → Option Bytes}

theorem Perm.len (hf : Perm P f) {s : Bytes} (hs : s.length = 200) : (P.permute s).length = 200 := by
  have := hf.valid.permute_len s (by rw [hs, hf.width])
  rw [this, hf.width]

theorem permuteIf_eq (hf : Perm P f) (c : Bool) {s : Bytes} (hs : s.length = 200) :
    permuteIf f c s = some (if c then P.permute s else s) := by
  rw [permuteIf]
  cases c
  · rfl
  · exact hf.eq s hs

theorem absorb_done (R : Nat) (input : Bytes) (fuel : Nat) (s : Bytes) (p b : Nat) :
    absorb f R input (fuel + 1) s p 0 b = some (s, b) := by
  rw [absorb, if_neg (by omega)]

theorem absorb_eq (hf : Perm P f) {R : Nat} (hR : 0 < R) (hR' : R ≤ 200) (input : Bytes) :
    ∀ (fuel : Nat) (s : Bytes) (p len : Nat), len < fuel → p + len ≤ input.length → s.length = 200 →
      absorb f R input fuel s p len 0 = some (absorbAll P R (s, 0) (Bytes.slice input p len)) := by
  intro fuel
  induction fuel with
  | zero => intro s p len h; omega
  | succ fuel ih =>
    intro s p len hl hp hs
    rw [absorb]
    by_cases h0 : len > 0
    · rw [if_pos h0]
      by_cases h1 : len < R
      · have hne : len ≠ R := by omega
        simp only [if_pos h1]
        refine bind_ok (xorInput_eq _ _ _ _ hp (by omega)) (bind_ok (permuteIf_eq hf _ (by simpa)) ?_)
        obtain ⟨fu, rfl⟩ : ∃ fu, fuel = fu + 1 := ⟨fuel - 1, by omega⟩
        rw [Nat.sub_self, absorb_done]
        simp only [hne, decide_false, Bool.false_eq_true, if_false]
        rw [Sponge.absorbAll_lt _ _ _ _ (by rw [Bytes.length_slice_of_le hp]; omega), Bytes.length_slice_of_le hp, Nat.zero_add]
      · simp only [if_neg h1]
        refine bind_ok (xorInput_eq _ _ _ _ (by omega) (by omega)) (bind_ok (permuteIf_eq hf _ (by simpa)) ?_)
        simp only [decide_true, if_true]
        rw [ih _ _ _ (by omega) (by omega) (hf.len (by simpa))]
        have e : Bytes.slice input p len = Bytes.slice input p R ++ Bytes.slice input (p + R) (len - R) := by
          simp only [Bytes.slice]
          rw [← List.drop_drop, show len = R + (len - R) by omega, List.take_add]
          simp
        have hlen : (Bytes.slice input p R).length = R := Bytes.length_slice_of_le (by omega)
        rw [e, Sponge.absorbAll_append, Sponge.absorbAll_fill R s 0 (Bytes.slice input p R)
          (by intro h; rw [h] at hlen; simp at hlen; omega) (by omega)]
    · have : len = 0 := by omega
      subst this
      rw [if_neg h0]
      simp [Bytes.slice]

theorem msb_iff : ∀ d : Byte, (d &&& 0x80) ≠ 0 ↔ 0x80#8 ≤ d := by decide +kernel

theorem pad_eq (hf : Perm P f) {R : Nat} (hR : 0 < R) (hR' : R ≤ 200) (d : Byte) (s : Bytes) (hs : s.length = 200) (b : Nat)
    (hb : b < R) : pad f R d s b = some (finish P R (s, b) d) := by
  have hl : (R + 2 ^ 32 - 1) % 2 ^ 32 = R - 1 := by omega
  have h0 : (Bytes.xorAt s b [d]).length = 200 := by rw [Bytes.length_xorAt, hs]
  unfold pad
  rw [hl]
  clear hl
  refine bind_ok (xorByte_eq _ _ _ (by omega)) (bind_ok (permuteIf_eq hf _ h0) ?_)
  have hs1 : (if decide ((d &&& 0x80) ≠ 0 ∧ b = R - 1) = true then P.permute (Bytes.xorAt s b [d]) else Bytes.xorAt s b [d]).length
      = 200 := by
    split
    · exact hf.len h0
    · exact h0
  refine bind_ok (xorByte_eq _ _ _ (by omega)) ?_
  rw [hf.eq _ (by rw [Bytes.length_xorAt]; exact hs1)]
  unfold finish
  simp only [msb_iff, decide_eq_true_eq]

theorem squeeze_eq (hf : Perm P f) {R : Nat} (hR : 0 < R) (hR' : R ≤ 200) :
    ∀ (fuel : Nat) (s o : Bytes) (p len : Nat), len < fuel → p + len ≤ o.length → s.length = 200 →
      squeeze f R fuel s o p len = some (Bytes.setAt o p (squeezeAll P R len (s, 0)).2) := by
  intro fuel
  induction fuel with
  | zero => intro s o p len h; omega
  | succ fuel ih =>
    intro s o p len hl hp hs
    rw [squeeze]
    by_cases h0 : len > 0
    · rw [if_pos h0]
      by_cases h1 : len < R
      · simp only [if_pos h1]
        refine bind_ok (copyOut_eq _ _ _ _ (by omega) hp) (bind_ok (permuteIf_eq hf _ hs) ?_)
        obtain ⟨fu, rfl⟩ : ∃ fu, fuel = fu + 1 := ⟨fuel - 1, by omega⟩
        rw [Nat.sub_self, squeeze, if_neg (by omega), Sponge.squeezeAll_block _ _ _ _ (by omega) (by omega)]
        simp [Bytes.slice]
      · simp only [if_neg h1]
        refine bind_ok (copyOut_eq _ _ _ _ (by omega) (by omega)) (bind_ok (permuteIf_eq hf _ hs) ?_)
        have hlen : (s.take R).length = R := by rw [List.length_take]; omega
        have e : squeezeAll P R len (s, 0) = squeezeAll P R (R + (len - R)) (s, 0) := by congr 1; omega
        rw [e, Sponge.squeezeAll_add, Sponge.squeezeAll_block R R s 0 (by omega) (by omega)]
        simp only [Nat.zero_add, Bytes.slice, List.drop_zero]
        by_cases h2 : len - R > 0
        · simp only [h2, decide_true, if_true]
          rw [ih _ _ _ _ (by omega) (by rw [Bytes.length_setAt]; omega) (hf.len hs)]
          obtain ⟨n, hn⟩ : ∃ n, len - R = n + 1 := ⟨len - R - 1, by omega⟩
          rw [hn, Sponge.squeezeAll_full _ _ hR]
          have := Bytes.setAt_append o p (s.take R) (squeezeAll P R (n + 1) (P.permute s, 0)).2
          rw [hlen] at this
          rw [this]
        · have h3 : len - R = 0 := by omega
          obtain ⟨fu, rfl⟩ : ∃ fu, fuel = fu + 1 := ⟨fuel - 1, by omega⟩
          rw [h3, squeeze, if_neg (by omega)]
          simp
    · have : len = 0 := by omega
      subst this
      rw [if_neg h0]
      simp

/-- The whole function writes the output of the byte machine. -/
theorem sponge_eq (hf : Perm P f) {R : Nat} (hR : 0 < R) (hR' : R ≤ 200) (input : Bytes) (inLen : Nat)
    (hin : inLen ≤ input.length) (d : Byte) (output : Bytes) (outLen : Nat) (hout : outLen ≤ output.length) :
    sponge f R input inLen d output outLen = some (Bytes.setAt output 0 (squeezeAll P R outLen
      (finish P R (absorbAll P R (P.init, 0) (input.take inLen)) d, 0)).2) := by
  have hi : P.init.length = 200 := by rw [SnP.init]; simp [hf.width]
  have hi' : (List.replicate 200 0 : Bytes) = P.init := by rw [SnP.init, hf.width]; rfl
  have hl := Sponge.absorbAll_len hf.valid R (P.init, 0) (input.take inLen) (by rw [hi, hf.width])
  rw [hf.width] at hl
  unfold sponge
  have h1 := absorb_eq hf hR hR' input (inLen + 1) P.init 0 inLen (by omega) (by omega) hi
  have e : Bytes.slice input 0 inLen = input.take inLen := by simp [Bytes.slice]
  rw [e] at h1
  rw [hi']
  have hfin := Sponge.finish_len hf.valid R (absorbAll P R (P.init, 0) (input.take inLen)) (by rw [hl, hf.width]) d
  rw [hf.width] at hfin
  refine bind_ok h1 (bind_ok (pad_eq hf hR hR' d _ hl _ (Sponge.absorbAll_idx _ _ _ hR)) ?_)
  rw [squeeze_eq hf hR hR' _ _ _ _ _ (by omega) (by omega) hfin]

theorem setAt_zero (o d : Bytes) (h : d.length ≤ o.length) : Bytes.setAt o 0 d = d ++ o.drop d.length := by
  apply List.ext_getElem?; intro i
  rw [Bytes.getElem?_setAt]
  by_cases hi : i < d.length
  · rw [List.getElem?_append_left hi, List.getElem?_eq_getElem (by omega), List.getElem?_eq_getElem hi]
    simp [hi]
  · rw [List.getElem?_append_right (by omega), List.getElem?_drop, show d.length + (i - d.length) = i by omega]
    cases o[i]? <;> simp [hi]

/-! ## When the sponge functions are undefined -/

/-- An invariant of the turns that are defined. -/
theorem loopM_of_some {σ : Type} (f : Nat → σ → Option σ) (I : Nat → σ → Prop) (n : Nat) : ∀ (a : Nat) (s t : σ), I a s →
    (∀ i s s', a ≤ i → I i s → f i s = some s' → I (i + 1) s') → loopM f a n s = some t → I (a + n) t := by
  induction n with
  | zero => intro a s t h _ e; cases e; exact h
  | succ n ih =>
    intro a s t h hs e
    rw [loopM] at e
    obtain ⟨s', h1, h2⟩ := Option.bind_eq_some_iff.mp e
    have := ih (a + 1) s' t (hs a s s' (Nat.le_refl _) h h1) (fun i s s' h => hs i s s' (by omega)) h2
    rwa [show a + (n + 1) = a + 1 + n by omega]

theorem xorByte_some {s t : Bytes} {p : Nat} {b : Byte} (e : xorByte s p b = some t) : p < s.length ∧ t.length = s.length := by
  rw [xorByte] at e
  obtain ⟨a, h1, h2⟩ := Option.map_eq_some_iff.mp e
  exact ⟨(List.getElem?_eq_some_iff.mp h1).1, by rw [← h2]; simp⟩

theorem xorInput_some {input s t : Bytes} {p n : Nat} (e : xorInput input p n s = some t) :
    t.length = s.length ∧ (0 < n → p + n ≤ input.length) := by
  have := loopM_of_some _ (fun i t => t.length = s.length ∧ (0 < i → p + i ≤ input.length)) n 0 s t ⟨rfl, by omega⟩ (by
    rintro i u u' _ ⟨h1, h2⟩ e
    obtain ⟨b, h3, h4⟩ := Option.bind_eq_some_iff.mp e
    have := (List.getElem?_eq_some_iff.mp h3).1
    exact ⟨by rw [(xorByte_some h4).2, h1], by omega⟩) e
  rwa [Nat.zero_add] at this

theorem copyOut_some {s o t : Bytes} {p n : Nat} (e : copyOut s n o p = some t) :
    t.length = o.length ∧ (0 < n → p + n ≤ o.length) := by
  have := loopM_of_some _ (fun i t => t.length = o.length ∧ (0 < i → p + i ≤ o.length)) n 0 o t ⟨rfl, by omega⟩ (by
    rintro i u u' _ ⟨h1, h2⟩ e
    obtain ⟨b, h3, h4⟩ := Option.bind_eq_some_iff.mp e
    split at h4
    · cases h4; rw [List.length_set]; omega
    · cases h4) e
  rwa [Nat.zero_add] at this

theorem permuteIf_some (hf : Perm P f) {c : Bool} {s t : Bytes} (hs : s.length = 200) (e : permuteIf f c s = some t) :
    t.length = 200 := by
  rw [permuteIf_eq hf c hs] at e
  cases e
  split
  · exact hf.len hs
  · exact hs

theorem absorb_some (hf : Perm P f) (R : Nat) (input : Bytes) : ∀ (fuel : Nat) (s : Bytes) (p len b : Nat) (r : Bytes × Nat),
    s.length = 200 → absorb f R input fuel s p len b = some r → r.1.length = 200 ∧ (0 < len → p + len ≤ input.length) := by
  intro fuel
  induction fuel with
  | zero => intro s p len b r _ e; cases e
  | succ fuel ih =>
    intro s p len b r hs e
    rw [absorb] at e
    by_cases h0 : len > 0
    · rw [if_pos h0] at e
      obtain ⟨s1, h1, e⟩ := Option.bind_eq_some_iff.mp e
      obtain ⟨s2, h2, e⟩ := Option.bind_eq_some_iff.mp e
      have h3 := xorInput_some h1
      have h4 := permuteIf_some hf (h3.1.trans hs) h2
      have h5 := ih _ _ _ _ _ h4 e
      refine ⟨h5.1, fun _ => ?_⟩
      generalize (if len < R then len else R) = n at h3 h5
      rcases Nat.eq_zero_or_pos n with h | h <;> rcases Nat.eq_zero_or_pos (len - n) with h' | h' <;> omega
    · rw [if_neg h0] at e
      cases e
      exact ⟨hs, fun h => absurd h h0⟩

theorem squeeze_some (hf : Perm P f) (R : Nat) : ∀ (fuel : Nat) (s o : Bytes) (p len : Nat) (r : Bytes),
    s.length = 200 → squeeze f R fuel s o p len = some r → (0 < len → p + len ≤ o.length) := by
  intro fuel
  induction fuel with
  | zero => intro s o p len r _ e; cases e
  | succ fuel ih =>
    intro s o p len r hs e h0
    rw [squeeze, if_pos h0] at e
    obtain ⟨s1, h1, e⟩ := Option.bind_eq_some_iff.mp e
    obtain ⟨s2, h2, e⟩ := Option.bind_eq_some_iff.mp e
    have h3 := copyOut_some h1
    have h4 := permuteIf_some hf hs h2
    have h5 := ih _ _ _ _ _ h4 e
    generalize (if len < R then len else R) = n at h3 h5
    rcases Nat.eq_zero_or_pos n with h | h <;> rcases Nat.eq_zero_or_pos (len - n) with h' | h' <;> omega

/-- The rate must be from 1 to 200 bytes and the buffers must hold the lengths. -/
theorem sponge_some (hf : Perm P f) {R : Nat} (hR : R < 2 ^ 32) {input : Bytes} {inLen : Nat} {d : Byte} {output : Bytes} {outLen : Nat}
    {r : Bytes} (e : sponge f R input inLen d output outLen = some r) :
    0 < R ∧ R ≤ 200 ∧ inLen ≤ input.length ∧ outLen ≤ output.length := by
  have hz : ((List.replicate 200 0 : Bytes)).length = 200 := List.length_replicate ..
  unfold sponge at e
  obtain ⟨a, h1, e⟩ := Option.bind_eq_some_iff.mp e
  obtain ⟨s, h2, e⟩ := Option.bind_eq_some_iff.mp e
  have h3 := absorb_some hf R input _ _ _ _ _ _ hz h1
  unfold pad at h2
  obtain ⟨s1, h4, h2⟩ := Option.bind_eq_some_iff.mp h2
  obtain ⟨s2, h5, h2⟩ := Option.bind_eq_some_iff.mp h2
  obtain ⟨s3, h6, h2⟩ := Option.bind_eq_some_iff.mp h2
  have h7 := permuteIf_some hf ((xorByte_some h4).2.trans h3.1) h5
  have h8 := xorByte_some h6
  rw [hf.eq _ (h8.2.trans h7)] at h2
  cases h2
  have h9 := squeeze_some hf R _ _ _ _ _ _ (hf.len (h8.2.trans h7)) e
  have h10 := h3.2
  have h11 := h8.1
  rw [h7] at h11
  clear h1 h2 h3 h4 h5 h6 h8 e
  omega

/-! ## The sponge of TweetableFIPS202.c -/

namespace Tweet

/-- The reference permutation as a byte machine. -/
abbrev F := KeccakP1600.Ref.snp 24

theorem permute_ok (A : Lanes) : ∃ A', permute (enc A) = some (enc A') ∧ bytesOfLanes A' = F.permute (bytesOfLanes A) := by
  refine ⟨_, permute_eq A, ?_⟩
  show _ = bytesOfLanes (KeccakP1600.Ref.onWords _ _ (lanesOfBytes (bytesOfLanes A)) 24)
  rw [KeccakP1600.lanesOfBytes_bytesOfLanes]

theorem xr_ok (A : Lanes) (b : Byte) (i : Nat) (h : i < 200) :
    ∃ A', xr (enc A) (i / 8) (b.setWidth 64 <<< (i % 8 * 8)) = some (enc A') ∧
      bytesOfLanes A' = Bytes.xorAt (bytesOfLanes A) i [b] := by
  refine ⟨_, xr_enc A (by omega) _, ?_⟩
  rw [KeccakP1600.bytesOfLanes_put_xor, KeccakP1600.xorAt_shift _ _ (i % 8) [b] _ (by simp; omega)]
  · rw [ix_val (by omega), show i / 8 * 8 + i % 8 = i by omega]
  · intro k hk
    rw [KeccakP1600.byteOf_shiftLeft _ _ _ hk]
    split
    · rw [KeccakP1600.byteOf_setWidth]
      split
      · rename_i h1; rw [h1]; rfl
      · rw [List.getD_eq_getElem?_getD, List.getElem?_eq_none (by simp; omega)]; rfl
    · rfl

theorem addBlock_ok (r : Nat) (hr : r ≤ 200) (x : Bytes) (p : Nat) (hp : p + r ≤ x.length) (A : Lanes) :
    ∃ A', addBlock r x p (enc A) = some (enc A') ∧
      bytesOfLanes A' = Bytes.xorAt (bytesOfLanes A) 0 (Bytes.slice x p r) := by
  obtain ⟨t, e, A', rfl, hA⟩ := loopM_inv
    (fun i s => (x[p + i]?).bind fun b => xr s (i / 8) (b.setWidth 64 <<< (i % 8 * 8)))
    (fun i t => ∃ A', t = enc A' ∧ bytesOfLanes A' = Bytes.xorAt (bytesOfLanes A) 0 ((Bytes.slice x p r).take i)) r 0 (enc A)
    ⟨A, rfl, by simp⟩ (by
      rintro i t h1 h2 ⟨B, rfl, hB⟩
      obtain ⟨B', e, hB'⟩ := xr_ok B (x[p + i]'(by omega)) i (by omega)
      refine ⟨_, by rw [List.getElem?_eq_getElem (by omega), Option.bind_some]; exact e, B', rfl, ?_⟩
      rw [hB', hB, take_slice_succ _ _ _ _ (by omega) (by omega)]
      have := Bytes.xorAt_append (bytesOfLanes A) 0 ((Bytes.slice x p r).take i) [x[p + i]]
      rw [List.length_take, Bytes.length_slice_of_le hp, Nat.min_eq_left (by omega), Nat.zero_add] at this
      exact this)
  refine ⟨A', e, ?_⟩
  rw [hA, Nat.zero_add, List.take_of_length_le (by rw [Bytes.length_slice_of_le hp])]

theorem absorb_ok (r : Nat) (hr : 0 < r) (hr' : r ≤ 200) (m : Bytes) :
    ∀ (fuel : Nat) (A : Lanes) (p n : Nat), n < fuel → p + n ≤ m.length →
      ∃ A' p' n', absorb r m fuel (enc A) p n = some (enc A', p', n') ∧ n' < r ∧ p' + n' = p + n ∧
        absorbAll F r (bytesOfLanes A, 0) (Bytes.slice m p n) = absorbAll F r (bytesOfLanes A', 0) (Bytes.slice m p' n') := by
  intro fuel
  induction fuel with
  | zero => intro A p n h; omega
  | succ fuel ih =>
    intro A p n hn hp
    rw [absorb]
    by_cases h1 : n ≥ r
    · rw [if_pos h1]
      obtain ⟨B, e1, hB⟩ := addBlock_ok r hr' m p (by omega) A
      obtain ⟨C, e2, hC⟩ := permute_ok B
      obtain ⟨A', p', n', e3, h2, h3, h4⟩ := ih C (p + r) (n - r) (by omega) (by omega)
      refine ⟨A', p', n', bind_ok e1 (bind_ok e2 e3), h2, by omega, ?_⟩
      have e : Bytes.slice m p n = Bytes.slice m p r ++ Bytes.slice m (p + r) (n - r) := by
        simp only [Bytes.slice]
        rw [← List.drop_drop, show n = r + (n - r) by omega, List.take_add]
        simp
      have hlen : (Bytes.slice m p r).length = r := Bytes.length_slice_of_le (by omega)
      rw [e, Sponge.absorbAll_append, Sponge.absorbAll_fill r _ 0 (Bytes.slice m p r)
        (by intro h; rw [h] at hlen; simp at hlen; omega) (by omega), ← hB, ← hC, h4]
    · rw [if_neg h1]
      exact ⟨A, p, n, rfl, by omega, rfl, rfl⟩

theorem setByte_eq (t : Bytes) (i : Nat) (b : Byte) (h : i < t.length) : setByte t i b = some (Bytes.setAt t i [b]) := by
  rw [setByte, if_pos h, set_eq_setAt]

theorem copy_ok (m : Bytes) (p n : Nat) (hp : p + n ≤ m.length) (t : Bytes) (hn : n ≤ t.length) :
    loopM (fun i t => (m[p + i]?).bind fun b => setByte t i b) 0 n t = some (Bytes.setAt t 0 (Bytes.slice m p n)) := by
  obtain ⟨t', e, ht⟩ := loopM_inv (fun i t => (m[p + i]?).bind fun b => setByte t i b)
    (fun i t' => t' = Bytes.setAt t 0 ((Bytes.slice m p n).take i)) n 0 t (by simp) (by
      intro i t' h1 h2 h3
      subst h3
      refine ⟨_, by rw [List.getElem?_eq_getElem (by omega), Option.bind_some, setByte_eq _ _ _ (by simp; omega)], ?_⟩
      rw [take_slice_succ _ _ _ _ (by omega) (by omega)]
      have := Bytes.setAt_append t 0 ((Bytes.slice m p n).take i) [m[p + i]]
      rw [List.length_take, Bytes.length_slice_of_le hp, Nat.min_eq_left (by omega), Nat.zero_add] at this
      exact this)
  rw [e, ht, List.take_of_length_le (by rw [Bytes.length_slice_of_le hp]; omega)]

theorem or_msb : ∀ d : Byte, d < 0x80 → d ||| 128 = d ^^^ 0x80 := by decide +kernel

theorem lastBlock_ok (r : Nat) (hr : 0 < r) (hr' : r ≤ 200) (m : Bytes) (p n : Nat) (hn : n < r) (hp : p + n ≤ m.length)
    (d : Byte) (hd : d < 0x80) :
    ∃ t, lastBlock r m p n d = some t ∧ t.length = 200 ∧ Bytes.slice t 0 r = Bytes.slice m p n ++ padTail r n d := by
  have hl : (Bytes.slice m p n).length = n := Bytes.length_slice_of_le hp
  generalize hb : Bytes.slice m p n = b at hl
  have hz : ((List.replicate 200 0 : Bytes)).length = 200 := List.length_replicate ..
  have h1 := copy_ok m p n hp (List.replicate 200 0) (by omega)
  rw [hb] at h1
  have hlen1 : (Bytes.setAt (List.replicate 200 0) 0 b).length = 200 := by rw [Bytes.length_setAt, hz]
  have hlen2 : (Bytes.setAt (Bytes.setAt (List.replicate 200 0) 0 b) n [d]).length = 200 := by rw [Bytes.length_setAt, hlen1]
  refine ⟨_, bind_ok h1 (bind_ok (setByte_eq _ _ _ (by omega)) (bind_ok
    (by rw [lastByte, if_neg (by omega), List.getElem?_eq_getElem (by omega)]) (setByte_eq _ _ _ (by omega)))), ?_, ?_⟩
  · rw [Bytes.length_setAt, hlen2]
  apply List.ext_getElem?; intro i
  rw [Bytes.getElem?_slice]
  by_cases hi : i < r
  · have hT : ∀ j, j < r → (Bytes.setAt (Bytes.setAt (List.replicate 200 0) 0 b) n [d])[j]? =
        some (if j < n then b.getD j 0 else if j = n then d else 0) := by
      intro j hj
      rw [Bytes.getElem?_setAt, Bytes.getElem?_setAt, List.getElem?_replicate, if_pos (by omega), Option.map_some, Option.map_some,
        Option.some.injEq, hl]
      by_cases h1 : j < n
      · rw [if_neg (by simp; omega), if_pos (by omega), if_pos h1, Nat.sub_zero]
      · rw [if_neg h1]
        by_cases h2 : j = n
        · subst h2; simp
        · rw [if_neg (by simp; omega), if_neg (by omega), if_neg h2]
    have hlast := hT (r - 1) (by omega)
    rw [List.getElem?_eq_getElem (by omega), Option.some.injEq] at hlast
    rw [if_pos hi, Nat.zero_add, Bytes.getElem?_setAt, hT i hi, Option.map_some, hlast]
    by_cases h1 : i < n
    · rw [if_neg (by simp; omega), if_pos h1, List.getElem?_append_left (by omega), List.getD_eq_getElem?_getD,
        List.getElem?_eq_getElem (by omega)]
      rfl
    rw [List.getElem?_append_right (by omega), hl, if_neg h1]
    unfold padTail
    by_cases h2 : n = r - 1
    · have : i = r - 1 := by omega
      subst h2 this
      have hnd : ¬ 0x80#8 ≤ d := by rw [BitVec.not_le]; exact hd
      simp [hnd]
      exact or_msb d hd
    · rw [if_neg h2]
      by_cases h3 : i = r - 1
      · subst h3
        have h5 : ¬ r - 1 = n := by omega
        rw [List.getElem?_append_right (by simp; omega)]
        simp [h1, h5]
        rw [show r - 1 - n - (r - 2 - n + 1) = 0 by omega]
        rfl
      · rw [if_neg (by simp; omega)]
        by_cases h4 : i = n
        · subst h4; simp
        · rw [if_neg h4, List.getElem?_append_left (by simp; omega), List.getElem?_append_right (by simp; omega)]
          simp [Bytes.zeros, List.getElem?_replicate]
          omega
  · rw [if_neg hi, List.getElem?_eq_none]
    have hpt : (padTail r n d).length = r - n := by
      unfold padTail
      have : ¬ 0x80#8 ≤ d := by rw [BitVec.not_le]; exact hd
      split
      · simp; omega
      · simp; omega
    rw [List.length_append, hl, hpt]; omega

theorem squeeze_ok (r : Nat) (hr : 0 < r) (hr' : r ≤ 200) (hr8 : r % 8 = 0) (d : Nat) (A : Lanes) (h : Bytes) (hd : d ≤ h.length) :
    ∃ A', squeeze r d (enc A) h = some (enc A', Bytes.setAt h 0 (squeezeAll F r d (bytesOfLanes A, r)).2) := by
  obtain ⟨⟨t, o⟩, e, A', h1, h2, h3⟩ := loopM_inv
    (fun i (st : List Lane × Bytes) => do
      let s ← permuteAt r i st.1
      let a ← s[i % r / 8]?
      let h ← setByte st.2 i ((a >>> (8 * (i % 8))).setWidth 8)
      some (s, h))
    (fun i st => ∃ A', st.1 = enc A' ∧ st.2 = Bytes.setAt h 0 (squeezeAll F r i (bytesOfLanes A, r)).2 ∧
      ∃ idx, 0 < idx ∧ idx ≤ r ∧ idx % r = i % r ∧ (squeezeAll F r i (bytesOfLanes A, r)).1 = (bytesOfLanes A', idx)) d 0
    (enc A, h) ⟨A, rfl, by simp [squeezeAll], r, hr, Nat.le_refl _, by simp, rfl⟩ (by
      rintro i ⟨s, o⟩ h1 h2 ⟨B, h3, h4, idx, h5, h6, h7, h8⟩
      simp only at h3 h4
      subst h3 h4
      have key : ∃ B', permuteAt r i (enc B) = some (enc B') ∧
          Sponge.squeezeStep F r (bytesOfLanes B, idx) =
            ((bytesOfLanes B', i % r + 1), (bytesOfLanes B').getD (i % r) 0) := by
        rw [permuteAt]
        by_cases hi : i % r = 0
        · rw [if_pos hi]
          obtain ⟨B', e, hB⟩ := permute_ok B
          have : idx = r := by
            rcases Nat.lt_or_ge idx r with h | h
            · rw [Nat.mod_eq_of_lt h] at h7; omega
            · omega
          exact ⟨B', e, by rw [Sponge.squeezeStep, if_pos this, hi, ← hB]⟩
        · rw [if_neg hi]
          have h9 : idx ≠ r := by rintro rfl; simp at h7; omega
          have h10 : idx = i % r := by rw [← h7, Nat.mod_eq_of_lt (by omega)]
          exact ⟨B, rfl, by rw [Sponge.squeezeStep, if_neg h9, h10]⟩
      obtain ⟨B', e1, e2⟩ := key
      have hir : i % r < r := Nat.mod_lt _ hr
      have h88 : i % r % 8 = i % 8 := Nat.mod_mod_of_dvd _ (Nat.dvd_of_mod_eq_zero hr8)
      have hbyte : (bytesOfLanes B').getD (i % r) 0 = (B' (ix (i % r / 8)) >>> (8 * (i % 8))).setWidth 8 := by
        rw [List.getD_eq_getElem?_getD, KeccakP1600.getElem?_bytesOfLanes, dif_pos (by omega), Option.getD_some,
          KeccakP1600.byteOf, h88]
        congr 3
        apply Fin.ext
        rw [ix_val (by omega)]
      refine ⟨_, bind_ok e1 (bind_ok (get_enc B' (by omega)) (bind_ok (setByte_eq _ _ _ (by
        rw [Bytes.length_setAt]; omega)) rfl)), B', rfl, ?_, i % r + 1, by omega, by omega, by rw [Nat.add_mod, Nat.mod_mod, ← Nat.add_mod], ?_⟩
      · have hlen := Sponge.length_squeezeAll (P := F) r i (bytesOfLanes A, r)
        rw [Sponge.squeezeAll_add, h8, Sponge.squeezeAll_succ, e2, hbyte]
        simp only [squeezeAll]
        have := Bytes.setAt_append h 0 (squeezeAll F r i (bytesOfLanes A, r)).2
          [(B' (ix (i % r / 8)) >>> (8 * (i % 8))).setWidth 8]
        rw [hlen, Nat.zero_add] at this
        exact this
      · rw [Sponge.squeezeAll_add, h8, Sponge.squeezeAll_succ, e2]
        rfl)
  refine ⟨A', ?_⟩
  simp only [Nat.zero_add] at h1 h2
  rw [squeeze, e, h1, h2]

theorem enc_zero : (List.replicate 25 0 : List Lane) = enc (fun _ => 0) := by rfl

theorem bytes_zero : bytesOfLanes (fun _ => 0) = F.init := by
  have e : F.init = List.replicate 200 0 := rfl
  rw [e]
  apply List.ext_getElem?; intro i
  rw [KeccakP1600.getElem?_bytesOfLanes, List.getElem?_replicate]
  split
  · rw [KeccakP1600.byteOf]; simp
  · rfl

theorem k_ok (r : Byte) (hr : 0 < r.toNat) (hr' : r.toNat ≤ 200) (hr8 : r.toNat % 8 = 0) (m : Bytes) (n : BitVec 64)
    (hn : n.toNat ≤ m.length) (p : Byte) (hp : p < 0x80) (h : Bytes) (d : BitVec 64) (hd : d.toNat ≤ h.length) :
    k r m n p h d = some (Bytes.setAt h 0 (squeezeAll F r.toNat d.toNat
      (finish F r.toNat (absorbAll F r.toNat (F.init, 0) (m.take n.toNat)) p, 0)).2) := by
  obtain ⟨A, p', n', e1, h1, h2, h3⟩ := absorb_ok r.toNat hr hr' m (n.toNat + 1) (fun _ => 0) 0 n.toNat (by omega) (by omega)
  obtain ⟨t, e2, h4, h5⟩ := lastBlock_ok r.toNat hr hr' m p' n' h1 (by omega) p hp
  obtain ⟨B, e3, h6⟩ := addBlock_ok r.toNat hr' t 0 (by omega) A
  obtain ⟨C, e4⟩ := squeeze_ok r.toNat hr hr' hr8 d.toNat B h hd
  unfold k
  rw [enc_zero]
  refine bind_ok e1 (bind_ok e2 (bind_ok e3 (bind_ok e4 ?_)))
  have hl : (Bytes.slice m p' n').length = n' := Bytes.length_slice_of_le (by omega)
  have hs : Bytes.slice m 0 n.toNat = m.take n.toNat := by simp [Bytes.slice]
  rw [hs, bytes_zero] at h3
  have hst : absorbAll F r.toNat (F.init, 0) (m.take n.toNat) =
      (Bytes.xorAt (bytesOfLanes A) 0 (Bytes.slice m p' n'), n') := by
    rw [h3, Sponge.absorbAll_lt _ _ _ _ (by omega), hl, Nat.zero_add]
  have hfin : finish F r.toNat (absorbAll F r.toNat (F.init, 0) (m.take n.toNat)) p = F.permute (bytesOfLanes B) := by
    have e := (Sponge.finish_eq (P := F) r.toNat hr (absorbAll F r.toNat (F.init, 0) (m.take n.toNat))
      (by rw [hst]; exact h1) p).1
    have hlen : (Bytes.slice m p' n' ++ padTail r.toNat n' p).length = r.toNat := by
      rw [← h5, Bytes.length_slice_of_le (by omega)]
    rw [e, hst]
    simp only
    rw [← hst, h3, ← Sponge.absorbAll_append, Sponge.absorbAll_fill _ _ _ _ (by intro h; rw [h] at hlen; simp at hlen; omega)
      (by omega), ← h5, ← h6]
  rw [hfin]
  rcases Nat.eq_zero_or_pos d.toNat with h0 | h0
  · rw [h0]; simp only [squeezeAll]
  · obtain ⟨e, he⟩ : ∃ e, d.toNat = e + 1 := ⟨d.toNat - 1, by omega⟩
    rw [he, Sponge.squeezeAll_full _ _ hr]

/-- If only one byte of the last block is free, the most significant bit of the suffix is lost. -/
theorem lastBlock_msb (r : Nat) (hr : 0 < r) (m : Bytes) (p : Nat) (d : Byte) :
    lastBlock r m p (r - 1) (d ||| 0x80) = lastBlock r m p (r - 1) d := by
  unfold lastBlock
  congr 1
  funext t
  rw [setByte, setByte]
  by_cases h : r - 1 < t.length
  · have e : ∀ d : Byte, (t.set (r - 1) d)[r - 1]? = some d := by
      intro d; rw [List.getElem?_set_self h]
    simp only [if_pos h, Option.bind_eq_bind, Option.bind_some, lastByte, if_neg (show ¬ r = 0 by omega), e, setByte,
      List.length_set, List.set_set]
    have : ∀ d : Byte, d ||| 0x80 ||| 128 = d ||| 128 := by decide +kernel
    rw [this]
  · simp only [if_neg h, Option.bind_eq_bind, Option.bind_none]

theorem absorb_rest (r : Nat) (hr : 0 < r) (m : Bytes) : ∀ (fuel : Nat) (s : List Lane) (p n : Nat) (a : List Lane × Nat × Nat),
    absorb r m fuel s p n = some a → a.2.2 = n % r := by
  intro fuel
  induction fuel with
  | zero => intro s p n a e; cases e
  | succ fuel ih =>
    intro s p n a e
    rw [absorb] at e
    by_cases h : n ≥ r
    · rw [if_pos h] at e
      obtain ⟨s1, h1, e⟩ := Option.bind_eq_some_iff.mp e
      obtain ⟨s2, h2, e⟩ := Option.bind_eq_some_iff.mp e
      rw [ih _ _ _ _ e, ← Nat.mod_eq_sub_mod h]
    · rw [if_neg h] at e
      cases e
      exact (Nat.mod_eq_of_lt (Nat.lt_of_not_le h)).symm

theorem k_msb (r : Byte) (hr : 0 < r.toNat) (m : Bytes) (n : BitVec 64) (hn : n.toNat % r.toNat = r.toNat - 1) (p : Byte) (h : Bytes)
    (d : BitVec 64) : k r m n (p ||| 0x80) h d = k r m n p h d := by
  unfold k
  cases e : absorb r.toNat m (n.toNat + 1) (List.replicate 25 0) 0 n.toNat with
  | none => rfl
  | some a =>
    have h1 := absorb_rest _ hr _ _ _ _ _ _ e
    rw [hn] at h1
    show (lastBlock r.toNat m a.2.1 a.2.2 (p ||| 0x80) >>= _) = (lastBlock r.toNat m a.2.1 a.2.2 p >>= _)
    rw [h1, lastBlock_msb _ hr]

end Tweet

end Compact202
