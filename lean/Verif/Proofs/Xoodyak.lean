import Verif.Model.Xoodyak
import Verif.Spec.Cyclist
import Verif.Proofs.ByteAccess

/-!
Lemmas: Xoodyak against the Cyclist specification.
-/

namespace Spec.Cyclist

/-- the blocks of a string, none if it is empty -/
def rest (X : Bytes) (n : Nat) : List Bytes := if X = [] then [] else split X n

/-- the lengths of the blocks of a string, none if it is empty -/
def restLengths (n len : Nat) : List Nat := if len = 0 then [] else blockLengths n len

theorem split_cons (X : Bytes) (n : Nat) (hn : 0 < n) : split X n = X.take n :: rest (X.drop n) n := by
  unfold rest split
  by_cases h : X.drop n = []
  · rw [if_pos h]
    have hl : X.length ≤ n := by
      have := congrArg List.length h
      simp at this; omega
    have : (X.length + n - 1) / n ≤ 1 := by
      rw [Nat.div_le_iff_le_mul_add_pred hn]; omega
    rw [Nat.max_eq_left this]
    simp
  · rw [if_neg h]
    have hl : n < X.length := by
      apply Nat.lt_of_not_le; intro hle
      exact h (List.drop_eq_nil_of_le hle)
    have e : (X.length + n - 1) / n = ((X.drop n).length + n - 1) / n + 1 := by
      rw [List.length_drop, show X.length + n - 1 = (X.length - n + n - 1) + n by omega, Nat.add_div_right _ hn]
    have e1 : 1 ≤ ((X.drop n).length + n - 1) / n := by
      rw [Nat.le_div_iff_mul_le hn, List.length_drop]; omega
    rw [e, Nat.max_eq_right (by omega), Nat.max_eq_right e1, List.range_succ_eq_map, List.map_cons, List.map_map]
    simp only [Nat.mul_zero, List.drop_zero, List.cons.injEq, true_and]
    apply List.map_congr_left
    intro i _
    simp only [Function.comp, List.drop_drop]
    rw [show n * (i + 1) = n + n * i by rw [Nat.mul_add]; omega]

theorem rest_nil (n : Nat) : rest [] n = [] := rfl

theorem rest_cons (X : Bytes) (n : Nat) (hn : 0 < n) (hX : X ≠ []) : rest X n = X.take n :: rest (X.drop n) n := by
  rw [← split_cons X n hn, rest, if_neg hX]

theorem blockLengths_cons (n len : Nat) (hn : 0 < n) :
    blockLengths n len = min n len :: restLengths n (len - n) := by
  unfold restLengths blockLengths
  by_cases h : len - n = 0
  · rw [if_pos h]
    have : (len + n - 1) / n ≤ 1 := by
      rw [Nat.div_le_iff_le_mul_add_pred hn]; omega
    rw [Nat.max_eq_left this]
    simp
  · rw [if_neg h]
    have e : (len + n - 1) / n = (len - n + n - 1) / n + 1 := by
      rw [show len + n - 1 = (len - n + n - 1) + n by omega, Nat.add_div_right _ hn]
    have e1 : 1 ≤ (len - n + n - 1) / n := by
      rw [Nat.le_div_iff_mul_le hn]; omega
    rw [e, Nat.max_eq_right (by omega), Nat.max_eq_right e1, List.range_succ_eq_map, List.map_cons, List.map_map]
    simp only [Nat.mul_zero, Nat.sub_zero, List.cons.injEq, true_and]
    apply List.map_congr_left
    intro i _
    simp only [Function.comp]
    rw [show n * (i + 1) = n + n * i by rw [Nat.mul_add]; omega, Nat.sub_add_eq]

theorem restLengths_cons (n len : Nat) (hn : 0 < n) (h : len ≠ 0) :
    restLengths n len = min n len :: restLengths n (len - n) := by
  rw [← blockLengths_cons n len hn, restLengths, if_neg h]

end Spec.Cyclist

namespace Bytes

theorem xorAt_zero_all (s d : Bytes) (h : d.length = s.length) : xorAt s 0 d = List.zipWith (· ^^^ ·) s d := by
  apply List.ext_getElem?; intro j
  rw [getElem?_xorAt, List.getElem?_zipWith]
  by_cases hj : j < s.length
  · rw [List.getElem?_eq_getElem hj, List.getElem?_eq_getElem (show j < d.length by omega)]
    simp [List.getElem?_eq_getElem (show j < d.length by omega)]
  · rw [List.getElem?_eq_none (by omega)]; rfl

theorem xorAt_replicate_zero (s : Bytes) (o n : Nat) : xorAt s o (List.replicate n 0) = s := by
  apply List.ext_getElem?; intro j
  rw [getElem?_xorAt]
  cases s[j]? with
  | none => rfl
  | some b =>
    simp only [Option.map_some, Option.some.injEq]
    by_cases h1 : o ≤ j
    · rw [if_pos h1, List.getD_eq_getElem?_getD, List.getElem?_replicate]
      split <;> simp
    · rw [if_neg h1]; simp

end Bytes

namespace Xoodyak

open Spec.Cyclist (St split rest blockLengths restLengths)

/-- the object of the specification as an instance of the code -/
def ofSt (S : St) : Inst :=
  ⟨S.s, if S.up then PhaseUp else PhaseDown, if S.keyed then ModeKeyed else ModeHash, Spec.Cyclist.Rabsorb S,
    Spec.Cyclist.Rsqueeze S⟩

theorem mode_hash (S : St) : (ofSt S).mode = ModeHash ↔ S.keyed = false := by
  unfold ofSt; cases S.keyed <;> simp [ModeHash, ModeKeyed]

theorem mode_keyed (S : St) : (ofSt S).mode = ModeKeyed ↔ S.keyed = true := by
  unfold ofSt; cases S.keyed <;> simp [ModeHash, ModeKeyed]

theorem phase_up (S : St) : (ofSt S).phase = PhaseUp ↔ S.up = true := by
  unfold ofSt; cases S.up <;> simp [PhaseUp, PhaseDown]

theorem addByte_some {s : Bytes} {b : Byte} {o : Nat} (h : o < s.length) :
    SnP.addByte s b o = some (Bytes.xorAt s o [b]) := by simp [SnP.addByte, h]

theorem addBytes_some {s d : Bytes} {o : Nat} (h : o + d.length ≤ s.length) :
    SnP.addBytes s d o = some (Bytes.xorAt s o d) := by simp [SnP.addBytes, h]

theorem extractBytes_some {s : Bytes} {o n : Nat} (h : o + n ≤ s.length) :
    SnP.extractBytes s o n = some (Bytes.slice s o n) := by simp [SnP.extractBytes, h]

/-- the string added by DOWN, in three steps -/
theorem down_xor (s d : Bytes) (c : Byte) (hs : s.length = 48) (hd : d.length ≤ 46) :
    Bytes.xorAt (Bytes.xorAt (Bytes.xorAt s 0 d) d.length [1]) 47 [c] =
      List.zipWith (· ^^^ ·) s (d ++ [1] ++ List.replicate (48 - d.length - 2) 0 ++ [c]) := by
  rw [← Bytes.xorAt_zero_all _ _ (by simp; omega)]
  have e1 := Bytes.xorAt_append s 0 d [1]
  rw [Nat.zero_add] at e1
  rw [e1]
  have e2 := Bytes.xorAt_append s 0 (d ++ [1]) (List.replicate (48 - d.length - 2) 0)
  rw [Bytes.xorAt_replicate_zero] at e2
  have e3 := Bytes.xorAt_append s 0 (d ++ [1] ++ List.replicate (48 - d.length - 2) 0) [c]
  rw [← e3, ← e2]
  congr 1
  simp; omega

theorem down_eq (S : St) (hS : S.s.length = 48) (X : Bytes) (n : Nat) (hn : n ≤ X.length) (h46 : n ≤ 46) (c : Byte) :
    down (ofSt S) X n c = some (ofSt (Spec.Cyclist.down S (X.take n) c)) := by
  have hl : (X.take n).length = n := by simp; omega
  have hst : (ofSt S).state = S.s := rfl
  rw [down, SnP.readBuf_some hn]
  simp only [Option.bind_eq_bind, Option.bind_some, hst]
  rw [addBytes_some (by omega)]
  simp only [Option.bind_some]
  rw [addByte_some (by rw [Bytes.length_xorAt]; omega)]
  simp only [Option.bind_some]
  rw [addByte_some (by rw [Bytes.length_xorAt, Bytes.length_xorAt, hS]; decide)]
  simp only [Option.bind_some, Option.some.injEq]
  have := down_xor S.s (X.take n) (if S.keyed then c else c &&& 1) hS (by omega)
  rw [hl] at this
  have hm : (if (ofSt S).mode = ModeHash then c &&& 0x01 else c) = if S.keyed then c else c &&& 1 := by
    by_cases hk : S.keyed = true
    · rw [if_neg (by rw [mode_hash, hk]; simp), if_pos hk]
    · rw [if_pos (by rw [mode_hash]; simpa using hk), if_neg hk]
  rw [hm, show f_bPrime - 1 = 47 from rfl, show (0x01 : Byte) = 1 from rfl, this]
  simp only [ofSt, Spec.Cyclist.down, hl]
  rfl

theorem length_down (S : St) (hS : S.s.length = 48) (Xi : Bytes) (h : Xi.length ≤ 46) (c : Byte) :
    (Spec.Cyclist.down S Xi c).s.length = 48 := by
  simp [Spec.Cyclist.down, hS]; omega

variable {f : Bytes → Bytes}

theorem up_eq (hf : ∀ s : Bytes, s.length = 48 → (f s).length = 48) (S : St) (hS : S.s.length = 48) (n : Nat)
    (hn : n ≤ 48) (c : Byte) :
    up f (ofSt S) n c = some (ofSt (Spec.Cyclist.goUp f S n c).1, (Spec.Cyclist.goUp f S n c).2) := by
  have hst : (ofSt S).state = S.s := rfl
  have h1 : addCu (ofSt S) c =
      some (if S.keyed then List.zipWith (· ^^^ ·) S.s (List.replicate 47 0 ++ [c]) else S.s) := by
    rw [addCu]
    by_cases hk : S.keyed = true
    · rw [if_pos (by rw [Ne, mode_hash, hk]; simp), if_pos hk, hst, addByte_some (by rw [hS]; decide)]
      rw [← Bytes.xorAt_zero_all _ _ (by simp [hS])]
      have e3 := Bytes.xorAt_append S.s 0 (List.replicate 47 0) [c]
      rw [← e3, Bytes.xorAt_replicate_zero]
      rfl
    · rw [if_neg (by rw [Ne, mode_hash]; simpa using hk), if_neg hk, hst]
  rw [up, h1]
  simp only [Option.bind_eq_bind, Option.bind_some]
  have hl : (f (if S.keyed then List.zipWith (· ^^^ ·) S.s (List.replicate 47 0 ++ [c]) else S.s)).length = 48 := by
    apply hf
    split
    · simp [hS]
    · exact hS
  rw [extractBytes_some (by rw [hl]; omega)]
  simp only [Option.bind_some, Spec.Cyclist.goUp, Bytes.slice, List.drop_zero]
  rfl

theorem length_goUp (hf : ∀ s : Bytes, s.length = 48 → (f s).length = 48) (S : St) (hS : S.s.length = 48) (n : Nat)
    (c : Byte) : (Spec.Cyclist.goUp f S n c).1.s.length = 48 := by
  simp only [Spec.Cyclist.goUp]
  apply hf
  split
  · simp [hS]
  · exact hS

/-! ### One full block -/

theorem down_zero (S : St) (hS : S.s.length = 48) (d : Bytes) (hd : d.length ≤ 46) :
    (Spec.Cyclist.down S d 0).s = Bytes.xorAt (Bytes.xorAt S.s 0 d) d.length [1] := by
  have h := down_xor S.s d 0 hS hd
  rw [show ([0] : Bytes) = List.replicate 1 0 from rfl, Bytes.xorAt_replicate_zero] at h
  rw [h]
  simp only [Spec.Cyclist.down]
  cases S.keyed <;> rfl

theorem goUp_zero (S : St) (hS : S.s.length = 48) (n : Nat) : (Spec.Cyclist.goUp f S n 0).1.s = f S.s := by
  simp only [Spec.Cyclist.goUp]
  by_cases hk : S.keyed = true
  · rw [if_pos hk, ← Bytes.xorAt_zero_all _ _ (by simp [hS]), show List.replicate 47 (0 : Byte) ++ [0] =
      List.replicate 48 0 from rfl, Bytes.xorAt_replicate_zero]
  · rw [if_neg hk]

theorem St.ext' {S T : St} (h1 : S.s = T.s) (h2 : S.up = T.up) (h3 : S.keyed = T.keyed) : S = T := by
  cases S; cases T; simp_all

/-- one block of the full-block absorbing functions -/
theorem absorb_block (hf : ∀ s : Bytes, s.length = 48 → (f s).length = 48) (s d : Bytes) (hs : s.length = 48)
    (hd : d.length ≤ 46) (keyed : Bool) :
    Spec.Cyclist.down (Spec.Cyclist.goUp f ⟨s, false, keyed⟩ 0 0).1 d 0 =
      ⟨Bytes.xorAt (Bytes.xorAt (f s) 0 d) d.length [1], false, keyed⟩ := by
  apply St.ext'
  · rw [down_zero _ (length_goUp hf _ hs _ _) d hd, goUp_zero _ hs]
  · rfl
  · rfl

theorem absorbFullBlocks_eq (hf : ∀ s : Bytes, s.length = 48 → (f s).length = 48) (r : Nat) (hr : 0 < r)
    (hr' : r ≤ 46) :
    ∀ (fuel : Nat) (s X : Bytes) (XLen : Nat), X.length = XLen → r ≤ XLen → XLen < fuel → s.length = 48 →
      ∃ s' k, absorbFullBlocks f r fuel s X XLen = some (s', X.drop k, XLen - k) ∧ 0 < k ∧ k ≤ XLen ∧ XLen - k < r ∧
        s'.length = 48 ∧ (∀ keyed : Bool, Spec.Cyclist.absorbBlocks f ⟨s, false, keyed⟩ (rest X r) 0 =
          Spec.Cyclist.absorbBlocks f ⟨s', false, keyed⟩ (rest (X.drop k) r) 0) ∧ r ∣ k ∧
        ∀ keyed : Bool, Spec.Cyclist.absorbBlocks f ⟨s, false, keyed⟩ (rest (X.take k) r) 0 = ⟨s', false, keyed⟩ := by
  intro fuel
  induction fuel with
  | zero => intro s X XLen _ _ h; omega
  | succ fuel ih =>
    intro s X XLen hX hrX hfuel hs
    have hd : (X.take r).length = r := by simp; omega
    rw [absorbFullBlocks, SnP.readBuf_some (by omega)]
    simp only [Option.bind_eq_bind, Option.bind_some]
    rw [addBytes_some (by rw [hf s hs]; omega)]
    simp only [Option.bind_some]
    rw [addByte_some (by rw [Bytes.length_xorAt, hf s hs]; omega)]
    simp only [Option.bind_some]
    have hstep' : ∀ (Z : Bytes), r ≤ Z.length → Z.take r = X.take r → ∀ keyed : Bool,
        Spec.Cyclist.absorbBlocks f ⟨s, false, keyed⟩ (rest Z r) 0 =
        Spec.Cyclist.absorbBlocks f ⟨Bytes.xorAt (Bytes.xorAt (f s) 0 (X.take r)) r [1], false, keyed⟩
          (rest (Z.drop r) r) 0 := by
      intro Z hZ hZX keyed
      rw [Spec.Cyclist.rest_cons Z r hr (by intro h; rw [h] at hZ; simp at hZ; omega), Spec.Cyclist.absorbBlocks]
      simp only [Bool.false_eq_true, if_false]
      rw [hZX, absorb_block hf s _ hs (by omega), hd]
    have hstep := hstep' X (by omega) rfl
    by_cases hc : XLen - r ≥ r
    · rw [if_pos hc]
      obtain ⟨s', k, h1, h2, h3, h4, h5, h6, h7, h8⟩ := ih (Bytes.xorAt (Bytes.xorAt (f s) 0 (X.take r)) r [1]) (X.drop r)
        (XLen - r) (by simp [hX]) hc (by omega) (by simp [hf s hs])
      refine ⟨s', r + k, ?_, by omega, by omega, by omega, h5, ?_, Nat.dvd_add (Nat.dvd_refl r) h7, ?_⟩
      · rw [h1, List.drop_drop, Nat.sub_sub]
      · intro keyed
        rw [hstep, h6, List.drop_drop]
      · intro keyed
        rw [hstep' (X.take (r + k)) (by simp; omega) (by rw [List.take_take]; congr 1; omega), ← h8 keyed]
        congr 2
        rw [List.drop_take]; congr 1; omega
    · rw [if_neg hc]
      refine ⟨_, r, rfl, hr, hrX, by omega, by simp [hf s hs], hstep, Nat.dvd_refl r, fun keyed => ?_⟩
      rw [hstep' (X.take r) (by omega) (by rw [List.take_take, Nat.min_self]),
        List.drop_eq_nil_of_le (by omega), Spec.Cyclist.rest_nil, Spec.Cyclist.absorbBlocks]

theorem squeezeFullBlocks_eq (hf : ∀ s : Bytes, s.length = 48 → (f s).length = 48) (r : Nat) (hr : 0 < r)
    (hr' : r ≤ 48) :
    ∀ (fuel : Nat) (s : Bytes) (YLen : Nat), r ≤ YLen → YLen < fuel → s.length = 48 →
      ∃ s' Y k, squeezeFullBlocks f r fuel s YLen = some (s', Y, YLen - k) ∧ 0 < k ∧ k ≤ YLen ∧ YLen - k < r ∧
        s'.length = 48 ∧ (∀ keyed : Bool, Spec.Cyclist.squeezeBlocks f ⟨s, true, keyed⟩ (restLengths r YLen) =
          ((Spec.Cyclist.squeezeBlocks f ⟨s', true, keyed⟩ (restLengths r (YLen - k))).1,
            Y ++ (Spec.Cyclist.squeezeBlocks f ⟨s', true, keyed⟩ (restLengths r (YLen - k))).2)) ∧ r ∣ k ∧
        ∀ keyed : Bool, Spec.Cyclist.squeezeBlocks f ⟨s, true, keyed⟩ (restLengths r k) = (⟨s', true, keyed⟩, Y) := by
  intro fuel
  induction fuel with
  | zero => intro s YLen _ h; omega
  | succ fuel ih =>
    intro s YLen hrY hfuel hs
    have hl : (f (Bytes.xorAt s 0 [1])).length = 48 := hf _ (by simp [hs])
    rw [squeezeFullBlocks, addByte_some (by omega)]
    simp only [Option.bind_eq_bind, Option.bind_some]
    rw [extractBytes_some (by rw [show (0x01 : Byte) = 1 from rfl, hl]; omega)]
    simp only [Option.bind_some]
    rw [if_neg (by omega)]
    rw [show (0x01 : Byte) = 1 from rfl]
    have hstep' : ∀ n, r ≤ n → ∀ keyed : Bool, Spec.Cyclist.squeezeBlocks f ⟨s, true, keyed⟩ (restLengths r n) =
        ((Spec.Cyclist.squeezeBlocks f ⟨f (Bytes.xorAt s 0 [1]), true, keyed⟩ (restLengths r (n - r))).1,
          Bytes.slice (f (Bytes.xorAt s 0 [1])) 0 r ++
            (Spec.Cyclist.squeezeBlocks f ⟨f (Bytes.xorAt s 0 [1]), true, keyed⟩ (restLengths r (n - r))).2) := by
      intro n hrn keyed
      have hd := down_zero ⟨s, true, keyed⟩ hs [] (by simp)
      have hu := goUp_zero (f := f) (Spec.Cyclist.down ⟨s, true, keyed⟩ [] 0) (length_down _ hs _ (by simp) _) r
      simp only [List.length_nil, Bytes.xorAt_nil] at hd
      rw [hd] at hu
      have hu' : (Spec.Cyclist.goUp f (Spec.Cyclist.down ⟨s, true, keyed⟩ [] 0) r 0) =
          (⟨f (Bytes.xorAt s 0 [1]), true, keyed⟩, Bytes.slice (f (Bytes.xorAt s 0 [1])) 0 r) := by
        apply Prod.ext
        · exact St.ext' hu rfl rfl
        · rw [Bytes.slice, List.drop_zero, ← hu]; rfl
      rw [Spec.Cyclist.restLengths_cons r n hr (by omega), Spec.Cyclist.squeezeBlocks, Nat.min_eq_left hrn, hu']
    have hstep := hstep' YLen hrY
    by_cases hc : YLen - r ≥ r
    · rw [if_pos hc]
      obtain ⟨s', Y, k, h1, h2, h3, h4, h5, h6, h7, h8⟩ := ih (f (Bytes.xorAt s 0 [1])) (YLen - r) hc (by omega) hl
      refine ⟨s', Bytes.slice (f (Bytes.xorAt s 0 [1])) 0 r ++ Y, r + k, ?_, by omega, by omega, by omega,
        h5, ?_, Nat.dvd_add (Nat.dvd_refl r) h7, ?_⟩
      · rw [h1]; simp only [Option.bind_some, Nat.sub_sub]
      · intro keyed
        rw [hstep, h6, Nat.sub_sub, List.append_assoc]
      · intro keyed
        rw [hstep' _ (by omega), show r + k - r = k by omega, h8]
    · rw [if_neg hc]
      refine ⟨_, _, r, rfl, hr, hrY, by omega, hl, hstep, Nat.dvd_refl r, fun keyed => ?_⟩
      rw [hstep' r (Nat.le_refl r), Nat.sub_self, restLengths, if_pos rfl, Spec.Cyclist.squeezeBlocks, List.append_nil]

/-- the loop of the full-block functions, for either direction -/
def cryptFull (f : Bytes → Bytes) (decrypt : Bool) :=
  if decrypt then decryptLoop f else encryptLoop f

/-- overwriting with the sum is adding -/
theorem setAt_xor (s d : Bytes) (h : d.length ≤ s.length) :
    Bytes.setAt s 0 (Bytes.xor d (Bytes.slice s 0 d.length)) = Bytes.xorAt s 0 d := by
  apply List.ext_getElem?; intro j
  rw [Bytes.getElem?_setAt, Bytes.getElem?_xorAt]
  by_cases hj : j < s.length
  · rw [List.getElem?_eq_getElem hj]
    simp only [Option.map_some, Option.some.injEq, Nat.zero_le, true_and, if_true, Nat.sub_zero, Nat.zero_add]
    have hl : (Bytes.xor d (Bytes.slice s 0 d.length)).length = d.length := by
      rw [Bytes.length_xor, Bytes.length_slice_of_le (by omega), Nat.min_self]
    by_cases hd : j < d.length
    · rw [if_pos (by omega)]
      rw [List.getD_eq_getElem?_getD, List.getD_eq_getElem?_getD, List.getElem?_eq_getElem hd, Bytes.xor,
        List.getElem?_zipWith, List.getElem?_eq_getElem hd, Bytes.getElem?_slice]
      rw [if_pos hd, Nat.zero_add, List.getElem?_eq_getElem hj]
      simp [BitVec.xor_comm]
    · rw [if_neg (by omega), List.getD_eq_getElem?_getD, List.getElem?_eq_none (by omega)]
      simp
  · rw [List.getElem?_eq_none (by omega)]; rfl

theorem extractAndAdd_some {s d : Bytes} (h : d.length ≤ s.length) :
    SnP.extractAndAddBytes s d 0 = some (List.zipWith (· ^^^ ·) d (s.take d.length)) := by
  simp [SnP.extractAndAddBytes, h, Bytes.xor, Bytes.slice]

theorem cryptFull_eq (hf : ∀ s : Bytes, s.length = 48 → (f s).length = 48) (decrypt : Bool) :
    ∀ (fuel : Nat) (s I : Bytes) (IOLen : Nat), I.length = IOLen → 24 ≤ IOLen → IOLen < fuel → s.length = 48 →
      ∃ s' O k, cryptFull f decrypt fuel s I IOLen = some (s', O, IOLen - k) ∧ 0 < k ∧ k ≤ IOLen ∧ IOLen - k < 24 ∧
        s'.length = 48 ∧ (∀ keyed : Bool, Spec.Cyclist.cryptBlocks f decrypt ⟨s, false, keyed⟩ (rest I 24) 0 =
          ((Spec.Cyclist.cryptBlocks f decrypt ⟨s', false, keyed⟩ (rest (I.drop k) 24) 0).1,
            O ++ (Spec.Cyclist.cryptBlocks f decrypt ⟨s', false, keyed⟩ (rest (I.drop k) 24) 0).2)) ∧ 24 ∣ k ∧
        ∀ keyed : Bool, Spec.Cyclist.cryptBlocks f decrypt ⟨s, false, keyed⟩ (rest (I.take k) 24) 0 =
          (⟨s', false, keyed⟩, O) := by
  intro fuel
  induction fuel with
  | zero => intro s I IOLen _ _ h; omega
  | succ fuel ih =>
    intro s I IOLen hI hrI hfuel hs
    have hd : (I.take 24).length = 24 := by simp; omega
    have hO : (List.zipWith (· ^^^ ·) (I.take 24) ((f s).take 24)).length = 24 := by
      rw [List.length_zipWith, hd, List.length_take, hf s hs]; rfl
    generalize hOe : List.zipWith (· ^^^ ·) (I.take 24) ((f s).take 24) = O at hO
    generalize hse : Bytes.xorAt (Bytes.xorAt (f s) 0 (if decrypt then O else I.take 24)) 24 [1] = t
    have ht : t.length = 48 := by rw [← hse]; simp [hf s hs]
    have hstep' : ∀ Z : Bytes, 24 ≤ Z.length → Z.take 24 = I.take 24 → ∀ keyed : Bool,
        Spec.Cyclist.cryptBlocks f decrypt ⟨s, false, keyed⟩ (rest Z 24) 0 =
        ((Spec.Cyclist.cryptBlocks f decrypt ⟨t, false, keyed⟩ (rest (Z.drop 24) 24) 0).1,
          O ++ (Spec.Cyclist.cryptBlocks f decrypt ⟨t, false, keyed⟩ (rest (Z.drop 24) 24) 0).2) := by
      intro Z hZ hZI keyed
      have h1 := absorb_block hf s (if decrypt then O else I.take 24) hs (by split <;> omega) keyed
      have h2 : (if decrypt then O else I.take 24).length = 24 := by split <;> assumption
      rw [h2, hse] at h1
      have h3 : (Spec.Cyclist.goUp f ⟨s, false, keyed⟩ 24 0).2 = (f s).take 24 := by
        rw [← goUp_zero (f := f) ⟨s, false, keyed⟩ hs 24]; rfl
      rw [Spec.Cyclist.rest_cons Z 24 (by omega) (by intro h; rw [h] at hZ; simp at hZ),
        Spec.Cyclist.cryptBlocks, hZI]
      simp only [hd, h3, hOe]
      rw [← h1]
      rfl
    have hstep := hstep' I (by omega) rfl
    have hrun : cryptFull f decrypt (fuel + 1) s I IOLen =
        if IOLen - 24 ≥ 24 then
          (cryptFull f decrypt fuel t (I.drop 24) (IOLen - 24)).bind fun st => some (st.1, O ++ st.2.1, st.2.2)
        else some (t, O, IOLen - 24) := by
      have hw : Bytes.setAt (f s) 0 O = Bytes.xorAt (f s) 0 (I.take 24) := by
        have := setAt_xor (f s) (I.take 24) (by rw [hf s hs]; omega)
        rw [hd, Bytes.xor, Bytes.slice, List.drop_zero, hOe] at this
        exact this
      unfold cryptFull
      cases decrypt
      · simp only [Bool.false_eq_true, if_false] at hse ⊢
        rw [encryptLoop, show Rkout = 24 from rfl, SnP.readBuf_some (by omega)]
        simp only [Option.bind_eq_bind, Option.bind_some]
        rw [extractAndAdd_some (by rw [hf s hs]; omega), hd, hOe]
        simp only [Option.bind_some]
        rw [SnP.overwriteBytes, if_pos (by rw [hf s hs]; omega), hw]
        simp only [Option.bind_some]
        rw [addByte_some (by simp [hf s hs]), show (0x01 : Byte) = 1 from rfl, hse]
        simp only [Option.bind_some]
      · simp only [if_true] at hse ⊢
        rw [decryptLoop, show Rkout = 24 from rfl, SnP.readBuf_some (by omega)]
        simp only [Option.bind_eq_bind, Option.bind_some]
        rw [extractAndAdd_some (by rw [hf s hs]; omega), hd, hOe]
        simp only [Option.bind_some]
        rw [addBytes_some (by rw [hf s hs]; omega)]
        simp only [Option.bind_some]
        rw [addByte_some (by simp [hf s hs]), show (0x01 : Byte) = 1 from rfl, hse]
        simp only [Option.bind_some]
    rw [hrun]
    by_cases hc : IOLen - 24 ≥ 24
    · rw [if_pos hc]
      obtain ⟨s', Y, k, h1, h2, h3, h4, h5, h6, h7, h8⟩ := ih t (I.drop 24) (IOLen - 24) (by simp [hI]) hc (by omega) ht
      refine ⟨s', O ++ Y, 24 + k, ?_, by omega, by omega, by omega, h5, ?_, Nat.dvd_add (Nat.dvd_refl 24) h7, ?_⟩
      · rw [h1]; simp only [Option.bind_some, Nat.sub_sub]
      · intro keyed
        rw [hstep, h6, List.drop_drop, List.append_assoc]
      · intro keyed
        have e : (I.take (24 + k)).drop 24 = (I.drop 24).take k := by
          rw [List.drop_take]; congr 1; omega
        rw [hstep' (I.take (24 + k)) (by simp; omega) (by rw [List.take_take]; congr 1; omega), e, h8]
    · rw [if_neg hc]
      refine ⟨_, _, 24, rfl, by omega, hrI, by omega, ht, hstep, Nat.dvd_refl 24, fun keyed => ?_⟩
      rw [hstep' (I.take 24) (by omega) (by rw [List.take_take, Nat.min_self]),
        List.drop_eq_nil_of_le (by omega), Spec.Cyclist.rest_nil, Spec.Cyclist.cryptBlocks, List.append_nil]

/-! ### Absorbing -/

theorem absorbFast_eq (hf : ∀ s : Bytes, s.length = 48 → (f s).length = 48) (full : Bool) (S : St)
    (hS : S.s.length = 48) (hup : S.up = false) (X : Bytes) (XLen : Nat) (hX : X.length = XLen) (r : Nat) :
    ∃ S' k, absorbFast f full (ofSt S) X XLen r = some (ofSt S', X.drop k, XLen - k) ∧ k ≤ XLen ∧
      S'.s.length = 48 ∧ S'.keyed = S.keyed ∧
      Spec.Cyclist.absorbBlocks f S (rest X r) 0 = Spec.Cyclist.absorbBlocks f S' (rest (X.drop k) r) 0 := by
  have hSe : S = ⟨S.s, false, S.keyed⟩ := St.ext' rfl hup rfl
  have hst : (ofSt S).state = S.s := rfl
  have hset : ∀ s', ({ ofSt S with state := s' } : Inst) = ofSt ⟨s', false, S.keyed⟩ := by
    intro s'; rw [hSe]; rfl
  rw [absorbFast]
  by_cases hfull : full = true
  · rw [if_pos hfull]
    by_cases h1 : r = Rkin ∧ XLen ≥ Rkin
    · rw [if_pos h1]
      obtain ⟨s', k, e1, e2, e3, e4, e5, e6, _⟩ := absorbFullBlocks_eq hf Rkin (by decide) (by decide) (XLen + 1) S.s X
        XLen hX h1.2 (by omega) hS
      refine ⟨⟨s', false, S.keyed⟩, k, ?_, e3, e5, rfl, ?_⟩
      · rw [absorbKeyedFullBlocks, hst, e1]
        simp only [Option.bind_eq_bind, Option.bind_some]
        rw [hset, Nat.sub_sub_self e3]
      · rw [h1.1]; have := e6 S.keyed; rw [← hSe] at this; exact this
    · rw [if_neg h1]
      by_cases h2 : r = Rhash ∧ XLen ≥ Rhash
      · rw [if_pos h2]
        obtain ⟨s', k, e1, e2, e3, e4, e5, e6, _⟩ := absorbFullBlocks_eq hf Rhash (by decide) (by decide) (XLen + 1) S.s X
          XLen hX h2.2 (by omega) hS
        refine ⟨⟨s', false, S.keyed⟩, k, ?_, e3, e5, rfl, ?_⟩
        · rw [absorbHashFullBlocks, hst, e1]
          simp only [Option.bind_eq_bind, Option.bind_some]
          rw [hset, Nat.sub_sub_self e3]
        · rw [h2.1]; have := e6 S.keyed; rw [← hSe] at this; exact this
      · rw [if_neg h2]
        exact ⟨S, 0, by simp, by omega, hS, rfl, by simp⟩
  · rw [if_neg hfull]
    exact ⟨S, 0, by simp, by omega, hS, rfl, by simp⟩

theorem upIfDown_eq (hf : ∀ s : Bytes, s.length = 48 → (f s).length = 48) (S : St) (hS : S.s.length = 48) :
    upIfDown f (ofSt S) = some (ofSt (if S.up then S else (Spec.Cyclist.goUp f S 0 0).1)) ∧
      (if S.up then S else (Spec.Cyclist.goUp f S 0 0).1).s.length = 48 ∧
      (if S.up then S else (Spec.Cyclist.goUp f S 0 0).1).keyed = S.keyed := by
  rw [upIfDown]
  by_cases h : S.up = true
  · rw [if_neg (by rw [Ne, phase_up]; simpa using h), if_pos h]
    exact ⟨rfl, hS, rfl⟩
  · rw [if_pos (by rw [Ne, phase_up]; simpa using h), if_neg h, up_eq hf S hS 0 (by omega)]
    exact ⟨rfl, length_goUp hf S hS _ _, rfl⟩

theorem absorbBlocks_nil (S : St) (c : Byte) : Spec.Cyclist.absorbBlocks f S [] c = S := by
  rw [Spec.Cyclist.absorbBlocks]

/-- what one run of the absorbing loop does -/
theorem absorbLoop_eq (hf : ∀ s : Bytes, s.length = 48 → (f s).length = 48) (full : Bool) (r : Nat) (hr : 0 < r)
    (hr' : r ≤ 46) :
    ∀ (fuel : Nat) (S : St) (X : Bytes) (XLen : Nat) (c : Byte), S.s.length = 48 → X.length = XLen → XLen < fuel →
      absorbLoop f full r fuel (ofSt S) X XLen c = some (ofSt (Spec.Cyclist.absorbBlocks f S (split X r) c)) ∧
        (Spec.Cyclist.absorbBlocks f S (split X r) c).s.length = 48 ∧
        (Spec.Cyclist.absorbBlocks f S (split X r) c).keyed = S.keyed := by
  intro fuel
  induction fuel with
  | zero => intro S X XLen c _ _ h; omega
  | succ fuel ih =>
    intro S X XLen c hS hX hfuel
    obtain ⟨u1, u2, u3⟩ := upIfDown_eq hf S hS
    rw [absorbLoop, u1]
    simp only [Option.bind_eq_bind, Option.bind_some]
    rw [Spec.Cyclist.split_cons X r hr, Spec.Cyclist.absorbBlocks]
    generalize (if S.up then S else (Spec.Cyclist.goUp f S 0 0).1) = U at u2 u3 ⊢
    rw [down_eq U u2 X (min XLen r) (by omega) (by omega)]
    simp only [Option.bind_some]
    have ht : X.take (min XLen r) = X.take r := by
      rw [← hX, List.take_eq_take_iff]; omega
    have hdr : X.drop (min XLen r) = X.drop r := by
      by_cases h : XLen ≤ r
      · rw [Nat.min_eq_left h, List.drop_eq_nil_of_le (by omega), List.drop_eq_nil_of_le (by omega)]
      · rw [Nat.min_eq_right (by omega)]
    rw [ht, hdr]
    have hD : (Spec.Cyclist.down U (X.take r) c).s.length = 48 := length_down U u2 _ (by simp; omega) c
    obtain ⟨S', k, e1, e2, e3, e4, e5⟩ := absorbFast_eq hf full (Spec.Cyclist.down U (X.take r) c) hD rfl (X.drop r)
      (XLen - min XLen r) (by simp; omega) r
    rw [e1, e5]
    simp only [Option.bind_some]
    have hk : (Spec.Cyclist.down U (X.take r) c).keyed = S.keyed := u3
    by_cases hz : XLen - min XLen r - k = 0
    · rw [if_neg (by omega)]
      have : (X.drop r).drop k = [] := List.drop_eq_nil_of_le (by simp; omega)
      rw [this, Spec.Cyclist.rest_nil, absorbBlocks_nil]
      exact ⟨rfl, e3, by rw [e4, hk]⟩
    · rw [if_pos hz]
      have := ih S' ((X.drop r).drop k) (XLen - min XLen r - k) 0 e3 (by simp; omega) (by omega)
      rw [rest, if_neg (by intro h; have := congrArg List.length h; simp at this; omega)]
      exact ⟨this.1, this.2.1, by rw [this.2.2, e4, hk]⟩

theorem absorbAny_eq (hf : ∀ s : Bytes, s.length = 48 → (f s).length = 48) (full : Bool) (r : Nat) (hr : 0 < r)
    (hr' : r ≤ 46) (S : St) (hS : S.s.length = 48) (X : Bytes) (c : Byte) :
    absorbAny f full (ofSt S) X r c = some (ofSt (Spec.Cyclist.absorbAny f S X r c)) ∧
      (Spec.Cyclist.absorbAny f S X r c).s.length = 48 ∧ (Spec.Cyclist.absorbAny f S X r c).keyed = S.keyed :=
  absorbLoop_eq hf full r hr hr' (X.length + 1) S X X.length c hS rfl (by omega)

theorem ofSt_Rabsorb (S : St) : (ofSt S).Rabsorb = Spec.Cyclist.Rabsorb S := rfl
theorem ofSt_Rsqueeze (S : St) : (ofSt S).Rsqueeze = Spec.Cyclist.Rsqueeze S := rfl

theorem Rabsorb_bounds (S : St) : 0 < Spec.Cyclist.Rabsorb S ∧ Spec.Cyclist.Rabsorb S ≤ 46 := by
  unfold Spec.Cyclist.Rabsorb; split <;> omega

theorem Rsqueeze_bounds (S : St) : 0 < Spec.Cyclist.Rsqueeze S ∧ Spec.Cyclist.Rsqueeze S ≤ 48 := by
  unfold Spec.Cyclist.Rsqueeze; split <;> omega

theorem absorbKey_eq (hf : ∀ s : Bytes, s.length = 48 → (f s).length = 48) (full : Bool) (S : St)
    (hS : S.s.length = 48) (K ID counter : Bytes) (h : K.length + ID.length ≤ 43) :
    absorbKey f full (ofSt S) K ID counter = some (ofSt (Spec.Cyclist.absorbKey f S K ID counter)) ∧
      (Spec.Cyclist.absorbKey f S K ID counter).s.length = 48 := by
  have e : ({ ofSt S with mode := ModeKeyed, Rabsorb := Rkin, Rsqueeze := Rkout } : Inst) =
      ofSt { S with keyed := true } := rfl
  rw [absorbKey, e, Spec.Cyclist.absorbKey]
  by_cases hK : K = []
  · subst hK
    exact ⟨rfl, hS⟩
  · have hKl : K.length ≠ 0 := by simpa using hK
    simp only [if_pos hKl, if_neg hK]
    rw [if_pos (show K.length + ID.length + 1 ≤ Rkin by unfold Rkin; omega), ofSt_Rabsorb]
    have h1 := absorbAny_eq hf full 44 (by omega) (by omega) { S with keyed := true } hS
      (K ++ ID ++ [BitVec.ofNat 8 ID.length]) 0x02
    rw [show Spec.Cyclist.Rabsorb { S with keyed := true } = 44 from rfl, h1.1]
    simp only [Option.bind_eq_bind, Option.bind_some]
    by_cases hc : counter = []
    · subst hc
      exact ⟨rfl, h1.2.1⟩
    · rw [if_pos (by simpa using hc), if_neg hc]
      have h2 := absorbAny_eq hf full 1 (by omega) (by omega) _ h1.2.1 counter 0x00
      exact ⟨h2.1, h2.2.1⟩

/-! ### Squeezing -/

theorem squeezeBlocks_nil (S : St) : Spec.Cyclist.squeezeBlocks f S [] = (S, []) := by
  rw [Spec.Cyclist.squeezeBlocks]

theorem squeezeLoop_eq (hf : ∀ s : Bytes, s.length = 48 → (f s).length = 48) (full : Bool) :
    ∀ (fuel : Nat) (S : St) (YLen : Nat), S.s.length = 48 → S.up = true → YLen < fuel →
      squeezeLoop f full fuel (ofSt S) YLen =
          some (ofSt (Spec.Cyclist.squeezeBlocks f S (restLengths (Spec.Cyclist.Rsqueeze S) YLen)).1,
            (Spec.Cyclist.squeezeBlocks f S (restLengths (Spec.Cyclist.Rsqueeze S) YLen)).2) ∧
        (Spec.Cyclist.squeezeBlocks f S (restLengths (Spec.Cyclist.Rsqueeze S) YLen)).1.s.length = 48 ∧
        (Spec.Cyclist.squeezeBlocks f S (restLengths (Spec.Cyclist.Rsqueeze S) YLen)).1.keyed = S.keyed := by
  intro fuel
  induction fuel with
  | zero => intro S YLen _ _ h; omega
  | succ fuel ih =>
    intro S YLen hS hup hfuel
    have hSe : S = ⟨S.s, true, S.keyed⟩ := St.ext' rfl hup rfl
    have hst : (ofSt S).state = S.s := rfl
    have hset : ∀ s', ({ ofSt S with state := s' } : Inst) = ofSt ⟨s', true, S.keyed⟩ := by
      intro s'; rw [hSe]; rfl
    rw [squeezeLoop]
    by_cases hz : YLen = 0
    · rw [if_neg (by omega), hz, restLengths, if_pos rfl, squeezeBlocks_nil]
      exact ⟨rfl, hS, rfl⟩
    rw [if_pos hz]
    by_cases h1 : full = true ∧ (ofSt S).mode = ModeKeyed ∧ YLen ≥ Rkin
    · rw [if_pos h1]
      have hk : S.keyed = true := (mode_keyed S).1 h1.2.1
      have hR : Spec.Cyclist.Rsqueeze S = 24 := by simp [Spec.Cyclist.Rsqueeze, hk]
      obtain ⟨s', Y, k, e1, e2, e3, e4, e5, e6, _⟩ := squeezeFullBlocks_eq hf Rkout (by decide) (by decide) (YLen + 1)
        S.s YLen (by have := h1.2.2; unfold Rkin at this; unfold Rkout; omega) (by omega) hS
      have e7 := e6 S.keyed
      rw [← hSe] at e7
      rw [hR, show (24 : Nat) = Rkout from rfl, e7, squeezeKeyedFullBlocks, hst, e1]
      simp only [Option.bind_eq_bind, Option.bind_some]
      have h2 := ih ⟨s', true, S.keyed⟩ (YLen - k) e5 rfl (by omega)
      have hR' : Spec.Cyclist.Rsqueeze ⟨s', true, S.keyed⟩ = Rkout := hR
      rw [hR'] at h2
      rw [hset, Nat.sub_sub_self e3, h2.1]
      exact ⟨rfl, h2.2⟩
    · rw [if_neg h1]
      by_cases h1' : full = true ∧ (ofSt S).mode = ModeHash ∧ YLen ≥ Rhash
      · rw [if_pos h1']
        have hk : S.keyed = false := (mode_hash S).1 h1'.2.1
        have hR : Spec.Cyclist.Rsqueeze S = 16 := by simp [Spec.Cyclist.Rsqueeze, hk]
        obtain ⟨s', Y, k, e1, e2, e3, e4, e5, e6, _⟩ := squeezeFullBlocks_eq hf Rhash (by decide) (by decide) (YLen + 1)
          S.s YLen h1'.2.2 (by omega) hS
        have e7 := e6 S.keyed
        rw [← hSe] at e7
        rw [hR, show (16 : Nat) = Rhash from rfl, e7, squeezeHashFullBlocks, hst, e1]
        simp only [Option.bind_eq_bind, Option.bind_some]
        have h2 := ih ⟨s', true, S.keyed⟩ (YLen - k) e5 rfl (by omega)
        have hR' : Spec.Cyclist.Rsqueeze ⟨s', true, S.keyed⟩ = Rhash := hR
        rw [hR'] at h2
        rw [hset, Nat.sub_sub_self e3, h2.1]
        exact ⟨rfl, h2.2⟩
      · rw [if_neg h1', down_eq S hS [] 0 (by simp) (by omega)]
        simp only [Option.bind_eq_bind, Option.bind_some, List.take_nil]
        have hb := Rsqueeze_bounds S
        have hD := length_down S hS [] (by simp) 0
        have hRd : (ofSt (Spec.Cyclist.down S [] 0)).Rsqueeze = Spec.Cyclist.Rsqueeze S := rfl
        rw [hRd, up_eq hf _ hD _ (by omega)]
        simp only [Option.bind_some]
        rw [Spec.Cyclist.restLengths_cons _ YLen hb.1 hz, Spec.Cyclist.squeezeBlocks]
        rw [Nat.min_comm]
        have hU := length_goUp hf _ hD (min (Spec.Cyclist.Rsqueeze S) YLen) 0
        have h2 := ih (Spec.Cyclist.goUp f (Spec.Cyclist.down S [] 0) (min (Spec.Cyclist.Rsqueeze S) YLen) 0).1
          (YLen - min (Spec.Cyclist.Rsqueeze S) YLen) hU rfl (by omega)
        have hR' : Spec.Cyclist.Rsqueeze (Spec.Cyclist.goUp f (Spec.Cyclist.down S [] 0)
          (min (Spec.Cyclist.Rsqueeze S) YLen) 0).1 = Spec.Cyclist.Rsqueeze S := rfl
        rw [hR', show YLen - min (Spec.Cyclist.Rsqueeze S) YLen = YLen - Spec.Cyclist.Rsqueeze S by omega] at h2
        rw [show YLen - min (Spec.Cyclist.Rsqueeze S) YLen = YLen - Spec.Cyclist.Rsqueeze S by omega, h2.1]
        exact ⟨rfl, h2.2⟩

theorem squeezeAny_eq (hf : ∀ s : Bytes, s.length = 48 → (f s).length = 48) (full : Bool) (S : St)
    (hS : S.s.length = 48) (YLen : Nat) (c : Byte) :
    squeezeAny f full (ofSt S) YLen c =
        some (ofSt (Spec.Cyclist.squeezeAny f S YLen c).1, (Spec.Cyclist.squeezeAny f S YLen c).2) ∧
      (Spec.Cyclist.squeezeAny f S YLen c).1.s.length = 48 ∧
      (Spec.Cyclist.squeezeAny f S YLen c).1.keyed = S.keyed := by
  have hb := Rsqueeze_bounds S
  have hRd : (ofSt S).Rsqueeze = Spec.Cyclist.Rsqueeze S := rfl
  rw [squeezeAny, Spec.Cyclist.squeezeAny, hRd, up_eq hf _ hS _ (by omega)]
  simp only [Option.bind_eq_bind, Option.bind_some]
  rw [Spec.Cyclist.blockLengths_cons _ YLen hb.1, Nat.min_comm]
  simp only [List.head!_cons, List.tail_cons]
  have hU := length_goUp hf _ hS (min (Spec.Cyclist.Rsqueeze S) YLen) c
  have h2 := squeezeLoop_eq hf full (YLen + 1) (Spec.Cyclist.goUp f S (min (Spec.Cyclist.Rsqueeze S) YLen) c).1
    (YLen - min (Spec.Cyclist.Rsqueeze S) YLen) hU rfl (by omega)
  have hR' : Spec.Cyclist.Rsqueeze (Spec.Cyclist.goUp f S (min (Spec.Cyclist.Rsqueeze S) YLen) c).1 =
    Spec.Cyclist.Rsqueeze S := rfl
  rw [hR', show YLen - min (Spec.Cyclist.Rsqueeze S) YLen = YLen - Spec.Cyclist.Rsqueeze S by omega] at h2
  rw [show YLen - min (Spec.Cyclist.Rsqueeze S) YLen = YLen - Spec.Cyclist.Rsqueeze S by omega, h2.1]
  exact ⟨rfl, h2.2⟩

/-! ### Encrypting and decrypting -/

theorem cryptBlocks_nil (d : Bool) (S : St) (c : Byte) : Spec.Cyclist.cryptBlocks f d S [] c = (S, []) := by
  rw [Spec.Cyclist.cryptBlocks]

/-- one round of the loop: either the full blocks or one block.  In the first case the domain byte is zero and the
object is in the down phase, as it is after every block. -/
theorem cryptBody_eq (hf : ∀ s : Bytes, s.length = 48 → (f s).length = 48) (full dec : Bool) (S : St)
    (hS : S.s.length = 48) (I : Bytes) (IOLen : Nat) (hI : I.length = IOLen) (c : Byte) (hc : c = 0 → S.up = false ∧ I ≠ []) :
    ∃ S' O k, cryptBody f full dec (ofSt S) I IOLen c = some (ofSt S', O, k) ∧ k ≤ IOLen ∧ (IOLen ≠ 0 → 0 < k) ∧
      S'.s.length = 48 ∧ S'.keyed = S.keyed ∧ S'.up = false ∧
      Spec.Cyclist.cryptBlocks f dec S (split I 24) c =
        ((Spec.Cyclist.cryptBlocks f dec S' (rest (I.drop k) 24) 0).1,
          O ++ (Spec.Cyclist.cryptBlocks f dec S' (rest (I.drop k) 24) 0).2) := by
  have hst : (ofSt S).state = S.s := rfl
  by_cases hfast : full = true ∧ c = 0 ∧ IOLen ≥ Rkout
  · obtain ⟨hup, hne⟩ := hc hfast.2.1
    have hSe : S = ⟨S.s, false, S.keyed⟩ := St.ext' rfl hup rfl
    have hset : ∀ s', ({ ofSt S with state := s' } : Inst) = ofSt ⟨s', false, S.keyed⟩ := by
      intro s'; rw [hSe]; rfl
    obtain ⟨s', O, k, e1, e2, e3, e4, e5, e6, _⟩ := cryptFull_eq hf dec (IOLen + 1) S.s I IOLen hI hfast.2.2 (by omega) hS
    refine ⟨⟨s', false, S.keyed⟩, O, k, ?_, e3, fun _ => e2, e5, rfl, rfl, ?_⟩
    · rw [cryptBody]
      cases dec
      · rw [if_neg (by simp), if_pos hfast, encryptFullBlocks, hst]
        rw [cryptFull, if_neg (by simp)] at e1
        rw [e1]
        simp only [Option.bind_eq_bind, Option.bind_some]
        rw [hset, Nat.sub_sub_self e3]
      · rw [if_pos rfl, if_pos hfast, decryptFullBlocks, hst]
        rw [cryptFull, if_pos rfl] at e1
        rw [e1]
        simp only [Option.bind_eq_bind, Option.bind_some]
        rw [hset, Nat.sub_sub_self e3]
    · have h := e6 S.keyed
      rw [← hSe, rest, if_neg hne] at h
      rw [hfast.2.1]; exact h
  · have hU0 : (Spec.Cyclist.goUp f S 0 c).1 = (Spec.Cyclist.goUp f S (min IOLen 24) c).1 := rfl
    have ht : I.take 24 = I.take (min IOLen 24) := by
      rw [← hI, List.take_eq_take_iff]; omega
    have hd : (I.take (min IOLen 24)).length = min IOLen 24 := by simp; omega
    have hdr : I.drop 24 = I.drop (min IOLen 24) := by
      by_cases h : IOLen ≤ 24
      · rw [Nat.min_eq_left h, List.drop_eq_nil_of_le (by omega), List.drop_eq_nil_of_le (by omega)]
      · rw [Nat.min_eq_right (by omega)]
    have hUl := length_goUp hf S hS (min IOLen 24) c
    have hU2 : (Spec.Cyclist.goUp f S (min IOLen 24) c).2 =
      (Spec.Cyclist.goUp f S (min IOLen 24) c).1.s.take (min IOLen 24) := rfl
    have hUk : (Spec.Cyclist.goUp f S (min IOLen 24) c).1.keyed = S.keyed := rfl
    rw [Spec.Cyclist.split_cons I 24 (by omega), ht, hdr, Spec.Cyclist.cryptBlocks, hd, hU2]
    have hup := up_eq hf S hS 0 (by omega) c
    rw [hU0] at hup
    generalize (Spec.Cyclist.goUp f S (min IOLen 24) c).1 = U at hUl hUk hup ⊢
    have hea := extractAndAdd_some (s := U.s) (d := I.take (min IOLen 24)) (by rw [hUl]; omega)
    rw [hd] at hea
    have hOl : (List.zipWith (· ^^^ ·) (I.take (min IOLen 24)) (U.s.take (min IOLen 24))).length = min IOLen 24 := by
      rw [List.length_zipWith, hd, List.length_take, hUl]; omega
    have hUs : (ofSt U).state = U.s := rfl
    generalize List.zipWith (· ^^^ ·) (I.take (min IOLen 24)) (U.s.take (min IOLen 24)) = O at hea hOl ⊢
    refine ⟨Spec.Cyclist.down U (if dec then O else I.take (min IOLen 24)) 0, O, min IOLen 24, ?_, by omega,
      by omega, length_down U hUl _ (by split <;> omega) 0, hUk, rfl, rfl⟩
    rw [cryptBody, show Rkout = 24 from rfl] at *
    cases dec
    · rw [if_neg (by simp), if_neg hfast]
      have hrb := SnP.readBuf_some (d := I) (n := min IOLen 24) (by omega)
      dsimp only
      rw [hrb]
      simp only [Option.bind_eq_bind, Option.bind_some]
      rw [hup]
      simp only [Option.bind_some]
      rw [hUs, hea]
      simp only [Option.bind_some]
      rw [down_eq U hUl _ _ (by omega) (by omega)]
      simp only [Option.bind_some, Bool.false_eq_true, if_false]
      rw [List.take_take, Nat.min_self]
    · rw [if_pos rfl, if_neg hfast]
      have hrb := SnP.readBuf_some (d := I) (n := min IOLen 24) (by omega)
      dsimp only
      rw [hrb]
      simp only [Option.bind_eq_bind, Option.bind_some]
      rw [hup]
      simp only [Option.bind_some]
      rw [hUs, hea]
      simp only [Option.bind_some]
      rw [down_eq U hUl _ _ (by omega) (by omega)]
      simp only [Option.bind_some, if_true]
      rw [List.take_of_length_le (by omega)]

theorem cryptLoop_eq (hf : ∀ s : Bytes, s.length = 48 → (f s).length = 48) (full dec : Bool) :
    ∀ (fuel : Nat) (S : St) (I : Bytes) (IOLen : Nat) (c : Byte), S.s.length = 48 → I.length = IOLen → IOLen < fuel →
      (c = 0 → S.up = false ∧ I ≠ []) →
      cryptLoop f full dec fuel (ofSt S) I IOLen c =
          some (ofSt (Spec.Cyclist.cryptBlocks f dec S (split I 24) c).1,
            (Spec.Cyclist.cryptBlocks f dec S (split I 24) c).2) ∧
        (Spec.Cyclist.cryptBlocks f dec S (split I 24) c).1.s.length = 48 ∧
        (Spec.Cyclist.cryptBlocks f dec S (split I 24) c).1.keyed = S.keyed := by
  intro fuel
  induction fuel with
  | zero => intro S I IOLen c _ _ h; omega
  | succ fuel ih =>
    intro S I IOLen c hS hI hfuel hc
    obtain ⟨S', O, k, e1, e2, e2', e3, e4, e5, e6⟩ := cryptBody_eq hf full dec S hS I IOLen hI c hc
    rw [cryptLoop, e1, e6]
    simp only [Option.bind_eq_bind, Option.bind_some]
    by_cases hz : IOLen - k = 0
    · rw [if_neg (by omega)]
      have : I.drop k = [] := List.drop_eq_nil_of_le (by omega)
      rw [this, Spec.Cyclist.rest_nil, cryptBlocks_nil, List.append_nil]
      exact ⟨rfl, e3, e4⟩
    · rw [if_pos hz]
      have hne : I.drop k ≠ [] := by intro h; have := congrArg List.length h; simp at this; omega
      have h2 := ih S' (I.drop k) (IOLen - k) 0 e3 (by simp [hI]) (by omega) (fun _ => ⟨e5, hne⟩)
      rw [rest, if_neg hne, show (0x00 : Byte) = 0 from rfl, h2.1]
      exact ⟨rfl, h2.2.1, by rw [h2.2.2, e4]⟩

theorem crypt_eq (hf : ∀ s : Bytes, s.length = 48 → (f s).length = 48) (full dec : Bool) (S : St)
    (hS : S.s.length = 48) (I : Bytes) :
    crypt f full (ofSt S) I dec =
        some (ofSt (Spec.Cyclist.crypt f S I dec).1, (Spec.Cyclist.crypt f S I dec).2) ∧
      (Spec.Cyclist.crypt f S I dec).1.s.length = 48 ∧ (Spec.Cyclist.crypt f S I dec).1.keyed = S.keyed :=
  cryptLoop_eq hf full dec (I.length + 1) S I I.length 0x80 hS rfl (by omega) (fun h => absurd h (by decide))

end Xoodyak
