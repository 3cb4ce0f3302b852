import Verif.Proofs.XoodooNeon

/-!
The functions for Xoodyak and Xoofff of the NEON assembly do what the plain implementation does.
-/

namespace XoodooNeon

open Xoodoo (Lane Lanes bytesOfLanes lanesOfBytes bytesOfWord rotl32)
open Simd32 (Vec wd loadWord storeWord loadVec storeVec bytesOfVec)
open XoofffSimd (words_ext wd_bytesOfLanes wd_take rc1 re1 P6)
open XoodooPlanes (Planes B length_B wd_pad loadWord_ok storeWord_eq load_ok storeVec_eq)
open XoodooArm (sub32 sub32_eq)

theorem words_eq (a b c : Vec 4) : words a b c = XoodooPlanes.vars2State ⟨a, b, c⟩ := by
  funext i; fin_cases i <;> rfl

theorem stState_eq (m : M) : stState m = XoodooPlanes.vars2State (planes m) := words_eq _ _ _

theorem vars_ldState (A : Lanes) (m : M) : XoodooPlanes.vars2State (planes (ldState A m)) = A := by
  funext i; fin_cases i <;> rfl

theorem rounds6_eq (m : M) (h : m.rc = 48) : ∃ m', mRounds tab12 6 m = some m' ∧ (∀ k, 6 ≤ k → m'.q k = m.q k) ∧
    XoodooPlanes.vars2State (planes m') = Xoodoo.Ref.onWords 6 (XoodooPlanes.vars2State (planes m)) :=
  mRounds_eq _ 6 m 6 h (by decide)

theorem rounds6b_eq (m : M) (h : m.rc = 0) : ∃ m', mRounds tab6b 6 m = some m' ∧ (∀ k, 6 ≤ k → m'.q k = m.q k) ∧
    XoodooPlanes.vars2State (planes m') = Xoodoo.Ref.onWords 6 (XoodooPlanes.vars2State (planes m)) :=
  mRounds_eq _ 6 m 0 h (by decide)

theorem rounds12_eq (m : M) (h : m.rc = 0) : ∃ m', mRounds tab12 12 m = some m' ∧ (∀ k, 6 ≤ k → m'.q k = m.q k) ∧
    XoodooPlanes.vars2State (planes m') = Xoodoo.Ref.onWords 12 (XoodooPlanes.vars2State (planes m)) :=
  mRounds_eq _ 12 m 0 h (by decide)

theorem permute6_eq (m : M) (A : Lanes) : permute6 m A = some (Xoodoo.Ref.onWords 6 A) := by
  obtain ⟨m', e1, _, e2⟩ := rounds6_eq { ldState A m with rc := 48 } rfl
  rw [permute6, e1, Option.bind_eq_bind, Option.bind_some, stState_eq, e2]
  exact congrArg (some ∘ Xoodoo.Ref.onWords 6) (vars_ldState A m)

theorem permute12_eq (m : M) (A : Lanes) : permute12 m A = some (Xoodoo.Ref.onWords 12 A) := by
  obtain ⟨m', e1, _, e2⟩ := rounds12_eq { ldState A m with rc := 0 } rfl
  rw [permute12, e1, Option.bind_eq_bind, Option.bind_some, stState_eq, e2]
  exact congrArg (some ∘ Xoodoo.Ref.onWords 12) (vars_ldState A m)

theorem B_permute12Asm (m : M) : ∃ m', permute12Asm m = some m' ∧ (∀ k, 6 ≤ k → m'.q k = m.q k) ∧
    B (planes m') = Xoodoo.Ref.permute12 (B (planes m)) := by
  obtain ⟨m', e1, e2, e3⟩ := rounds12_eq { m with rc := 0 } rfl
  refine ⟨m', e1, e2, ?_⟩
  rw [B, e3, Xoodoo.Ref.permute12, Xoodoo.Ref.permuteNrounds, B, Xoodoo.lanesOfBytes_bytesOfLanes]
  rfl

theorem B_ldState (A : Lanes) (m : M) : B (planes (ldState A m)) = bytesOfLanes A := by rw [B, vars_ldState]

theorem wd_B (m : M) {p : Nat} (hp : p < 12) : wd (B (planes m)) p = XoodooPlanes.vars2State (planes m) ⟨p, hp⟩ := wd_bytesOfLanes _ hp

theorem vld1_ok (buf : Bytes) (p k d : Nat) (m : M) (h : p + 4 * k + 16 ≤ buf.length) :
    vld1 buf (p + 4 * k) d m = some (m.set d fun l => wd (buf.drop p) (k + l.val)) := by
  rw [vld1, load_ok 4 buf p k (by omega)]; rfl

theorem vld1D_ok (buf : Bytes) (p k d : Nat) (m : M) (h : p + 4 * k + 8 ≤ buf.length) :
    vld1D buf (p + 4 * k) d m = some (m.setD d (wd (buf.drop p) k) (wd (buf.drop p) (k + 1))) := by
  have e : loadWord buf (p + 4 * k + 4) = some (wd (buf.drop p) (k + 1)) := loadWord_ok buf p (k + 1) (by omega)
  rw [vld1D, loadWord_ok buf p k (by omega), Option.bind_eq_bind, Option.bind_some, e]
  rfl

/-! ### Absorbing -/

theorem addKeyed_ok (X : Bytes) (p : Nat) (m : M) (hI : m.q 6 3 = 1) (h : p + 44 ≤ X.length) :
    ∃ m', addKeyed X p m = some (m', p + 44) ∧ m'.q 6 3 = 1 ∧
      B (planes m') = Bytes.xorAt (Bytes.xorAt (B (planes m)) 0 ((X.drop p).take 44)) 44 [1] := by
  have e1 := fun m => vld1_ok X p 0 3 m (by omega)
  have e2 := fun m => vld1_ok X p 4 4 m (by omega)
  have e3 := fun m => vld1D_ok X p 8 12 m (by omega)
  have e4 : loadWord X (p + 4 * 10) = some _ := loadWord_ok X p 10 (by omega)
  simp only [Nat.mul_zero, Nat.add_zero, Nat.reduceMul, Nat.reduceAdd] at e1 e2 e3 e4
  unfold addKeyed
  simp only [e1, e2, e3, Option.bind_eq_bind, Option.bind_some, Nat.add_assoc, Nat.reduceAdd, e4]
  refine ⟨_, rfl, hI, ?_⟩
  apply words_ext (length_B _) (by simp [length_B])
  intro q hq
  rw [show (44 : Nat) = 4 * 11 from rfl, wd_pad _ _ _ _ (length_B _) hq, wd_B _ hq, wd_B _ hq]
  generalize wd (X.drop p) = W
  interval_cases q
  iterate 11 exact BitVec.xor_zero.symm
  exact (congrArg (_ ^^^ ·) hI).trans (congrArg (· ^^^ _) BitVec.xor_zero.symm)

theorem addHash_ok (X : Bytes) (p : Nat) (m : M) (hI : m.q 6 0 = 1 ∧ m.q 6 1 = 0) (h : p + 16 ≤ X.length) :
    ∃ m', addHash X p m = some (m', p + 16) ∧ (m'.q 6 0 = 1 ∧ m'.q 6 1 = 0) ∧
      B (planes m') = Bytes.xorAt (Bytes.xorAt (B (planes m)) 0 ((X.drop p).take 16)) 16 [1] := by
  have e1 := fun m => vld1_ok X p 0 3 m (by omega)
  simp only [Nat.mul_zero, Nat.add_zero] at e1
  unfold addHash
  simp only [e1, Option.bind_eq_bind, Option.bind_some]
  refine ⟨_, rfl, hI, ?_⟩
  apply words_ext (length_B _) (by simp [length_B])
  intro q hq
  rw [show (16 : Nat) = 4 * 4 from rfl, wd_pad _ _ _ _ (length_B _) hq, wd_B _ hq, wd_B _ hq]
  generalize wd (X.drop p) = W
  interval_cases q
  iterate 4 exact BitVec.xor_zero.symm
  · exact (congrArg (_ ^^^ ·) hI.1).trans (congrArg (· ^^^ _) BitVec.xor_zero.symm)
  · exact (congrArg (_ ^^^ ·) hI.2).trans (congrArg (· ^^^ _) BitVec.xor_zero.symm)
  all_goals exact (BitVec.xor_zero.trans BitVec.xor_zero).symm

theorem absorbLoop_ok (I : Vec 4 → Prop) (X : Bytes) (add : Nat → M → Option (M × Nat)) (r : Nat) (h0 : 0 < r) (hr : r < 48)
    (hadd : ∀ p m, I (m.q 6) → p + r ≤ X.length → ∃ m', add p m = some (m', p + r) ∧ I (m'.q 6) ∧
      B (planes m') = Bytes.xorAt (Bytes.xorAt (B (planes m)) 0 ((X.drop p).take r)) r [1]) :
    ∀ (fuel fuel' : Nat) (m : M) (p XLen : Nat), I (m.q 6) → r ≤ XLen → p + XLen ≤ X.length → XLen < 2 ^ 32 → XLen < fuel → XLen < fuel' →
      ∃ m' X' k, Xoodyak.absorbFullBlocks Xoodoo.Ref.permute12 r fuel (B (planes m)) (X.drop p) XLen = some (B (planes m'), X', k) ∧
        absorbLoop add r fuel' m p (XLen - r) = some (m', p + (XLen - k)) ∧ k ≤ XLen := by
  intro fuel
  induction fuel with
  | zero => intro fuel' m p XLen _ _ _ _ h; omega
  | succ fuel ih =>
    intro fuel' m p XLen hI h1 h2 h3 h4 h5
    obtain ⟨fuel', rfl⟩ : ∃ f, fuel' = f + 1 := ⟨fuel' - 1, by omega⟩
    obtain ⟨m0, p1, p2, p3⟩ := B_permute12Asm m
    obtain ⟨m1, e1, e2, e3⟩ := hadd p m0 (by rw [p2 6 (by omega)]; exact hI) (by omega)
    have hl : (Xoodoo.Ref.permute12 (B (planes m))).length = 48 := by rw [← p3, length_B]
    rw [p3] at e3
    have hd : ((X.drop p).take r).length = r := by simp; omega
    rw [Xoodyak.absorbFullBlocks, SnP.readBuf_some (by rw [List.length_drop]; omega), absorbLoop, p1]
    simp only [Option.bind_eq_bind, Option.bind_some]
    rw [e1, Xoodyak.addBytes_some (by rw [hl]; omega)]
    simp only [Option.bind_some]
    rw [Xoodyak.addByte_some (by rw [Bytes.length_xorAt, hl]; omega)]
    simp only [Option.bind_some]
    rw [show (0x01 : Byte) = 1 from rfl, ← e3, List.drop_drop]
    by_cases hc : XLen - r ≥ r
    · obtain ⟨m', X', k, i1, i2, i3⟩ := ih fuel' m1 (p + r) (XLen - r) e2 hc (by omega) (by omega) (by omega) (by omega)
      rw [if_pos hc, if_neg (by omega), sub32_eq (by omega) (by omega)]
      exact ⟨m', X', k, i1, by rw [i2, show p + r + (XLen - r - k) = p + (XLen - k) by omega], by omega⟩
    · rw [if_neg hc, if_pos (by omega)]
      exact ⟨_, _, _, rfl, by rw [show XLen - (XLen - r) = r by omega], by omega⟩

/-! ### Squeezing -/

theorem B_one (m : M) (hI : m.q 6 0 = 1 ∧ m.q 6 1 = 0) : B (planes (veorD 0 0 12 m)) = Bytes.xorAt (B (planes m)) 0 [1] := by
  apply words_ext (length_B _) (by simp [length_B])
  intro p hp
  have := wd_pad (B (planes m)) [] 0 p (length_B _) hp
  rw [List.take_nil, Bytes.xorAt_nil, Nat.mul_zero] at this
  rw [this, wd_B _ hp, wd_B _ hp]
  interval_cases p
  · exact (congrArg (_ ^^^ ·) hI.1).trans (congrArg (· ^^^ _) BitVec.xor_zero.symm)
  · exact (congrArg (_ ^^^ ·) hI.2).trans (congrArg (· ^^^ _) BitVec.xor_zero.symm)
  all_goals exact (BitVec.xor_zero.trans BitVec.xor_zero).symm

theorem vst1D_ok (buf : Bytes) (p d : Nat) (m : M) (h : p + 8 ≤ buf.length) :
    vst1D buf p d m = some (Bytes.setAt buf p (bytesOfWord (m.dw d 0) ++ bytesOfWord (m.dw d 1))) := by
  rw [vst1D, storeWord_eq _ _ _ (by omega), Option.bind_eq_bind, Option.bind_some, storeWord_eq _ _ _ (by rw [Bytes.length_setAt]; omega),
    XoodooPlanes.setAt_word]

theorem storeKeyed_ok (m : M) (Y : Bytes) (p : Nat) (h : p + 24 ≤ Y.length) :
    storeKeyed m Y p = some (Bytes.setAt Y p ((B (planes m)).take 24), p + 24) := by
  rw [storeKeyed, storeVec_eq _ _ _ (by omega), Option.bind_eq_bind, Option.bind_some, vst1D_ok _ _ _ _ (by rw [Bytes.length_setAt]; omega),
    Option.bind_some, XoodooPlanes.take24]
  have := Bytes.setAt_append Y p (bytesOfVec (m.q 0)) (bytesOfWord (m.dw 2 0) ++ bytesOfWord (m.dw 2 1))
  rw [Simd32.length_bytesOfVec] at this
  rw [show p + 16 = p + 4 * 4 from rfl, this]
  rfl

theorem storeHash_ok (m : M) (Y : Bytes) (p : Nat) (h : p + 16 ≤ Y.length) :
    storeHash m Y p = some (Bytes.setAt Y p ((B (planes m)).take 16), p + 16) := by
  rw [storeHash, storeVec_eq _ _ _ (by omega), XoodooPlanes.take16]
  rfl

theorem squeezeLoop_ok (store : M → Bytes → Nat → Option (Bytes × Nat)) (r : Nat) (h0 : 0 < r) (hr : r ≤ 48)
    (hstore : ∀ m Y o, o + r ≤ Y.length → store m Y o = some (Bytes.setAt Y o ((B (planes m)).take r), o + r)) :
    ∀ (fuel fuel' : Nat) (m : M) (Y : Bytes) (p YLen : Nat), (m.q 6 0 = 1 ∧ m.q 6 1 = 0) → r ≤ YLen → p + YLen ≤ Y.length → YLen < 2 ^ 32 →
      YLen < fuel → YLen < fuel' →
      ∃ m' out k, Xoodyak.squeezeFullBlocks Xoodoo.Ref.permute12 r fuel (B (planes m)) YLen = some (B (planes m'), out, k) ∧
        squeezeLoop store r fuel' m Y p (YLen - r) = some (m', Bytes.setAt Y p out, p + (YLen - k)) ∧ k ≤ YLen ∧ out.length = YLen - k := by
  intro fuel
  induction fuel with
  | zero => intro fuel' m Y p YLen _ _ _ _ h; omega
  | succ fuel ih =>
    intro fuel' m Y p YLen hI h1 h2 h3 h4 h5
    obtain ⟨fuel', rfl⟩ : ∃ f, fuel' = f + 1 := ⟨fuel' - 1, by omega⟩
    obtain ⟨m1, p1, p2, p3⟩ := B_permute12Asm (veorD 0 0 12 m)
    rw [Xoodyak.squeezeFullBlocks, Xoodyak.addByte_some (by rw [length_B]; omega), squeezeLoop, p1]
    simp only [Option.bind_eq_bind, Option.bind_some]
    rw [show (0x01 : Byte) = 1 from rfl, ← B_one m hI, ← p3]
    have hI' : m1.q 6 0 = 1 ∧ m1.q 6 1 = 0 := by rw [p2 6 (by omega)]; exact hI
    rw [Xoodyak.extractBytes_some (by rw [length_B]; omega), Option.bind_some, hstore _ _ _ (by omega), Option.bind_some, if_neg (by omega)]
    have hl : ((B (planes m1)).take r).length = r := by rw [List.length_take, length_B]; omega
    have hsl : Bytes.slice (B (planes m1)) 0 r = (B (planes m1)).take r := by rw [Bytes.slice, List.drop_zero]
    by_cases hc : YLen - r ≥ r
    · obtain ⟨m', out, k, i1, i2, i3, i4⟩ := ih fuel' m1 (Bytes.setAt Y p ((B (planes m1)).take r)) (p + r) (YLen - r) hI' hc
        (by rw [Bytes.length_setAt]; omega) (by omega) (by omega) (by omega)
      rw [if_pos hc, if_neg (by omega), sub32_eq (by omega) (by omega), i1, Option.bind_some]
      refine ⟨m', (B (planes m1)).take r ++ out, k, ?_, ?_, by omega, by rw [List.length_append, hl, i4]; omega⟩
      · rw [hsl]
      · rw [i2]
        have := Bytes.setAt_append Y p ((B (planes m1)).take r) out
        rw [hl] at this
        rw [this, show p + r + (YLen - r - k) = p + (YLen - k) by omega]
    · rw [if_neg hc, if_pos (by omega), hsl]
      exact ⟨m1, _, _, rfl, by rw [show YLen - (YLen - r) = r by omega], by omega, by rw [hl]; omega⟩

/-! ### Encrypting and decrypting -/

theorem encryptBlock_ok (m : M) (mem : Bytes) (i o : Nat) (hI : m.q 6 2 = 1 ∧ m.q 6 3 = 0) (hi : i + 24 ≤ mem.length) (ho : o + 24 ≤ mem.length) :
    ∃ m', encryptBlock m mem i o = some (m', Bytes.setAt mem o (Bytes.xor ((mem.drop i).take 24) ((B (planes m)).take 24))) ∧
      (m'.q 6 2 = 1 ∧ m'.q 6 3 = 0) ∧ (∀ l, m'.q 3 l = wd (mem.drop i) l.val) ∧ (m'.q 6 0 = wd (mem.drop i) 4 ∧ m'.q 6 1 = wd (mem.drop i) 5) ∧
      B (planes m') = Bytes.xorAt (Bytes.xorAt (B (planes m)) 0 ((mem.drop i).take 24)) 24 [1] := by
  have e1 := fun m => vld1_ok mem i 0 3 m (by omega)
  have e2 := fun m => vld1D_ok mem i 4 12 m (by omega)
  simp only [Nat.mul_zero, Nat.add_zero, Nat.reduceMul, Nat.reduceAdd] at e1 e2
  have hd : ((mem.drop i).take 24).length = 24 := by rw [List.length_take, List.length_drop]; omega
  unfold encryptBlock
  simp only [e1, e2, Option.bind_eq_bind, Option.bind_some]
  generalize hm : veor 1 1 6 (veor 0 0 3 ((m.set 3 fun l => wd (mem.drop i) (0 + l.val)).setD 12 (wd (mem.drop i) 4) (wd (mem.drop i) 5))) = m'
  have hB : B (planes m') = Bytes.xorAt (Bytes.xorAt (B (planes m)) 0 ((mem.drop i).take 24)) 24 [1] := by
    subst hm
    apply words_ext (length_B _) (by simp [length_B])
    intro q hq
    rw [show (24 : Nat) = 4 * 6 from rfl, wd_pad _ _ _ _ (length_B _) hq, wd_B _ hq, wd_B _ hq]
    generalize wd (mem.drop i) = W
    interval_cases q
    iterate 6 exact BitVec.xor_zero.symm
    · exact (congrArg (_ ^^^ ·) hI.1).trans (congrArg (· ^^^ _) BitVec.xor_zero.symm)
    · exact (congrArg (_ ^^^ ·) hI.2).trans (congrArg (· ^^^ _) BitVec.xor_zero.symm)
    all_goals exact (BitVec.xor_zero.trans BitVec.xor_zero).symm
  have hs := storeKeyed_ok m' mem o ho
  rw [hB, XoodooPlanes.take24_pad _ _ (length_B _) hd] at hs
  have hs' : ∃ Y, storeVec mem o (m'.q 0) = some Y ∧ vst1D Y (o + 16) 2 m' =
      some (Bytes.setAt mem o (Bytes.xor ((mem.drop i).take 24) ((B (planes m)).take 24))) := by
    unfold storeKeyed at hs
    cases e : storeVec mem o (m'.q 0) with
    | none => rw [e] at hs; simp at hs
    | some Y =>
      rw [e, Option.bind_eq_bind, Option.bind_some] at hs
      refine ⟨Y, rfl, ?_⟩
      cases e' : vst1D Y (o + 16) 2 m' with
      | none => rw [e'] at hs; simp at hs
      | some Z => rw [e', Option.bind_some] at hs; exact congrArg some (Prod.mk.inj (Option.some.inj hs)).1
  obtain ⟨Y, s1, s2⟩ := hs'
  rw [s1, Option.bind_some, s2, Option.bind_some]
  refine ⟨m', rfl, ?_, ?_, ?_, hB⟩
  · subst hm; exact hI
  · subst hm; intro l; show wd _ (0 + l.val) = _; rw [Nat.zero_add]
  · subst hm; exact ⟨rfl, rfl⟩

theorem decryptBlock_ok (m : M) (mem : Bytes) (i o : Nat) (hI : m.q 6 2 = 1 ∧ m.q 6 3 = 0) (hi : i + 24 ≤ mem.length) (ho : o + 24 ≤ mem.length) :
    ∃ m', decryptBlock m mem i o = some (m', Bytes.setAt mem o (Bytes.xor ((mem.drop i).take 24) ((B (planes m)).take 24))) ∧
      (m'.q 6 2 = 1 ∧ m'.q 6 3 = 0) ∧
      B (planes m') = Bytes.xorAt (Bytes.xorAt (B (planes m)) 0 (Bytes.xor ((mem.drop i).take 24) ((B (planes m)).take 24))) 24 [1] := by
  obtain ⟨m1, e1, e2, e3, e4, e5⟩ := encryptBlock_ok m mem i o hI hi ho
  have hd : ((mem.drop i).take 24).length = 24 := by rw [List.length_take, List.length_drop]; omega
  refine ⟨vmovD 2 12 (vmov 0 3 m1), by rw [decryptBlock, e1]; rfl, e2, ?_⟩
  have hl : ((B (planes m)).take 24).length = 24 := by rw [List.length_take, length_B]; rfl
  have hw : ∀ k < 6, wd (Bytes.xor ((mem.drop i).take 24) ((B (planes m)).take 24)) k = wd (mem.drop i) k ^^^ wd (B (planes m)) k := by
    intro k hk
    rw [XoodooPlanes.wd_xor' (by omega) (by omega), wd_take (by omega), wd_take (by omega)]
  have hO : (Bytes.xor ((mem.drop i).take 24) ((B (planes m)).take 24)).length = 24 := by rw [Bytes.length_xor, hd, hl]; rfl
  generalize Bytes.xor ((mem.drop i).take 24) ((B (planes m)).take 24) = O at hO hw
  apply words_ext (length_B _) (by simp [length_B])
  intro k hk
  have e := wd_pad (B (planes m)) O 6 k (length_B _) hk
  rw [List.take_of_length_le (by omega)] at e
  refine Eq.trans ?_ e.symm
  by_cases h6 : k < 6
  · rw [if_pos h6, if_neg (by omega), hw k h6, XoodooPlanes.xor_back, wd_B _ hk]
    refine Eq.trans ?_ BitVec.xor_zero.symm
    interval_cases k
    · exact e3 0
    · exact e3 1
    · exact e3 2
    · exact e3 3
    · exact e4.1
    · exact e4.2
  · have h := congrArg (fun b => wd b k) e5
    have e' := wd_pad (B (planes m)) (mem.drop i) 6 k (length_B _) hk
    rw [if_neg h6] at e' ⊢
    rw [← e']
    refine Eq.trans ?_ h
    rw [wd_B _ hk, wd_B _ hk]
    interval_cases k <;> first | rfl | omega

theorem cryptLoop_ok (dec : Bool) :
    ∀ (fuel fuel' : Nat) (m : M) (mem I : Bytes) (i o IOLen : Nat), (m.q 6 2 = 1 ∧ m.q 6 3 = 0) → 24 ≤ IOLen → i + IOLen ≤ mem.length →
      o + IOLen ≤ mem.length → IOLen < 2 ^ 32 → IOLen < fuel → IOLen < fuel' → (o ≤ i ∨ i + IOLen ≤ o) →
      (mem.drop i).take IOLen = I.take IOLen → IOLen ≤ I.length →
      ∃ m' out n, Xoodyak.cryptFull Xoodoo.Ref.permute12 dec fuel (B (planes m)) I IOLen = some (B (planes m'), out, n) ∧
        cryptLoop (if dec then decryptBlock else encryptBlock) fuel' m mem i o (IOLen - 24) = some (m', Bytes.setAt mem o out, i + (IOLen - n)) ∧
        n ≤ IOLen ∧ out.length = IOLen - n := by
  have hf : ∀ s : Bytes, s.length = 48 → (Xoodoo.Ref.permute12 s).length = 48 := fun s _ => Xoodoo.length_bytesOfLanes _
  have hblock : ∀ (m : M) (mem : Bytes) (i o : Nat), (m.q 6 2 = 1 ∧ m.q 6 3 = 0) → i + 24 ≤ mem.length → o + 24 ≤ mem.length →
      ∃ m', (if dec then decryptBlock else encryptBlock) m mem i o =
          some (m', Bytes.setAt mem o (Bytes.xor ((mem.drop i).take 24) ((B (planes m)).take 24))) ∧
        (m'.q 6 2 = 1 ∧ m'.q 6 3 = 0) ∧
        B (planes m') = Bytes.xorAt (Bytes.xorAt (B (planes m)) 0
          (if dec then Bytes.xor ((mem.drop i).take 24) ((B (planes m)).take 24) else (mem.drop i).take 24)) 24 [1] := by
    intro m mem i o hI hi ho
    cases dec
    · obtain ⟨m', e1, e2, _, _, e5⟩ := encryptBlock_ok m mem i o hI hi ho
      exact ⟨m', e1, e2, e5⟩
    · exact decryptBlock_ok m mem i o hI hi ho
  generalize (if dec then decryptBlock else encryptBlock) = block at *
  intro fuel
  induction fuel with
  | zero => intro fuel' m mem I i o IOLen _ _ _ _ _ h; omega
  | succ fuel ih =>
    intro fuel' m mem I i o IOLen hI0 h1 h2 h3 h4 h5 h6 hov hI hIl
    obtain ⟨fuel', rfl⟩ : ∃ f, fuel' = f + 1 := ⟨fuel' - 1, by omega⟩
    obtain ⟨m0, p1, p2, p3⟩ := B_permute12Asm m
    obtain ⟨m1, e1, e0, e2⟩ := hblock m0 mem i o (by rw [p2 6 (by omega)]; exact hI0) (by omega) (by omega)
    have hd : (mem.drop i).take 24 = I.take 24 := by
      have := congrArg (List.take 24) hI
      rwa [List.take_take, List.take_take, Nat.min_eq_left h1] at this
    rw [p3, hd] at e1 e2
    generalize hO : Bytes.xor (I.take 24) ((Xoodoo.Ref.permute12 (B (planes m))).take 24) = O at e1 e2
    have hOl : O.length = 24 := by
      rw [← hO, Bytes.length_xor, List.length_take, List.length_take, hf _ (length_B _)]; omega
    rw [XoodooPlanes.cryptFull_step hf dec fuel (B (planes m)) I O IOLen (by omega) (length_B _) hO, ← e2, cryptLoop, p1, Option.bind_eq_bind,
      Option.bind_some, e1, Option.bind_eq_bind, Option.bind_some]
    by_cases hc : IOLen - 24 ≥ 24
    · have hI' : ((Bytes.setAt mem o O).drop (i + 24)).take (IOLen - 24) = (I.drop 24).take (IOLen - 24) := by
        apply List.ext_getElem?; intro j
        rw [List.getElem?_take, List.getElem?_take]
        by_cases hj : j < IOLen - 24
        · rw [if_pos hj, if_pos hj, List.getElem?_drop, List.getElem?_drop, Bytes.getElem?_setAt]
          have e := congrArg (fun l => l[24 + j]?) hI
          simp only [List.getElem?_take, if_pos (show 24 + j < IOLen by omega), List.getElem?_drop] at e
          rw [← e, ← Nat.add_assoc]
          cases mem[i + 24 + j]? with
          | none => rfl
          | some b => rw [Option.map_some, if_neg (by omega)]
        · rw [if_neg hj, if_neg hj]
      obtain ⟨m', out, n, i1, i2, i3, i4⟩ := ih fuel' m1 (Bytes.setAt mem o O) (I.drop 24) (i + 24) (o + 24) (IOLen - 24) e0 hc
        (by rw [Bytes.length_setAt]; omega) (by rw [Bytes.length_setAt]; omega) (by omega) (by omega) (by omega) (by omega) hI'
        (by rw [List.length_drop]; omega)
      rw [if_pos hc, if_neg (by omega), sub32_eq (by omega) (by omega), i1, Option.bind_some]
      refine ⟨m', O ++ out, n, rfl, ?_, by omega, by rw [List.length_append, hOl, i4]; omega⟩
      have := Bytes.setAt_append mem o O out
      rw [hOl] at this
      rw [i2, this, show i + 24 + (IOLen - 24 - n) = i + (IOLen - n) by omega]
    · rw [if_neg hc, if_pos (by omega)]
      exact ⟨m1, O, _, rfl, by rw [show IOLen - (IOLen - 24) = 24 by omega], by omega, by omega⟩

/-! ### Xoofff -/

/-- Three registers as a state. -/
def at3' (m : M) (d : Nat) : Planes := ⟨m.q d, m.q (d + 1), m.q (d + 2)⟩

theorem rotV (x : Lane) (i j : Nat) (hi : 0 < i) (hj : i + j = 32) (h0 : 0 < j) :
    (x <<< i &&& ~~~ (BitVec.allOnes 32 >>> j)) ||| x >>> j = rotl32 x i := sri_shl x i j hi hj h0

theorem compressOut_k (m : M) : B (at3' (compressOut m) 6) = rc1 (B (at3' m 6)) := by
  refine XoodooPlanes.shifted XoofffSimd.shift_rc1 (at3' m 6) (at3' (compressOut m) 6) rfl rfl fun l => ?_
  fin_cases l
  · rfl
  · rfl
  · rfl
  · show (m.q 6 0 <<< 13 ^^^ m.q 6 0) ^^^ ((m.q 7 0 <<< 3 &&& ~~~ (BitVec.allOnes 32 >>> 29)) ||| m.q 7 0 >>> 29) =
      m.q 6 0 ^^^ (m.q 6 0 <<< 13 ^^^ rotl32 (m.q 7 0) 3)
    rw [rotV _ 3 29 (by decide) (by decide) (by decide), BitVec.xor_comm (m.q 6 0 <<< 13), BitVec.xor_assoc]

theorem compressOut_x (m : M) : B (at3' (compressOut m) 9) = Bytes.xor (B (at3' m 9)) (B (planes m)) := by
  rw [← XoodooPlanes.B_xor3]; rfl

theorem expandRoll_y (m : M) : B (at3' (expandRoll m) 9) = re1 (B (at3' m 9)) := by
  refine XoodooPlanes.shifted XoofffSimd.shift_re1 (at3' m 9) (at3' (expandRoll m) 9) rfl rfl fun l => ?_
  fin_cases l
  · rfl
  · rfl
  · rfl
  · show ((((m.q 9 0 <<< 5 &&& ~~~ (BitVec.allOnes 32 >>> 27)) ||| m.q 9 0 >>> 27) ^^^
        ((m.q 10 0 <<< 13 &&& ~~~ (BitVec.allOnes 32 >>> 19)) ||| m.q 10 0 >>> 19)) ^^^ (m.q 10 0 &&& m.q 11 0)) ^^^ 7 =
      rotl32 (m.q 9 0) 5 ^^^ rotl32 (m.q 10 0) 13 ^^^ (m.q 11 0 &&& m.q 10 0) ^^^ 7
    rw [rotV _ 5 27 (by decide) (by decide) (by decide), rotV _ 13 19 (by decide) (by decide) (by decide), BitVec.and_comm (m.q 10 0)]

theorem B_rounds6b (m : M) (h : m.rc = 0) : ∃ m', mRounds tab6b 6 m = some m' ∧ (∀ k, 6 ≤ k → m'.q k = m.q k) ∧
    B (planes m') = P6 (B (planes m)) := by
  obtain ⟨m', e1, e2, e3⟩ := rounds6b_eq m h
  refine ⟨m', e1, e2, ?_⟩
  rw [B, e3, P6, Xoodoo.Ref.permute6, Xoodoo.Ref.permuteNrounds, B, Xoodoo.lanesOfBytes_bytesOfLanes]

theorem compressIn_ok (input : Bytes) (p : Nat) (m : M) (h : p + 48 ≤ input.length) :
    ∃ m', compressIn input p m = some m' ∧ m'.rc = 0 ∧ (∀ k, 6 ≤ k → m'.q k = m.q k) ∧
      B (planes m') = Bytes.xor (B (at3' m 6)) ((input.drop p).take 48) := by
  have e1 := fun m => vld1_ok input p 0 0 m (by omega)
  have e2 := fun m => vld1_ok input p 4 1 m (by omega)
  have e3 := fun m => vld1_ok input p 8 2 m (by omega)
  simp only [Nat.mul_zero, Nat.add_zero, Nat.reduceMul] at e1 e2 e3
  unfold compressIn
  simp only [e1, e2, e3, Option.bind_eq_bind, Option.bind_some]
  refine ⟨_, rfl, rfl, fun k hk => ?_, ?_⟩
  · obtain ⟨j, rfl⟩ : ∃ j, k = j + 6 := ⟨k - 6, by omega⟩
    rfl
  · have hl : ((input.drop p).take 48).length = 48 := by rw [List.length_take, List.length_drop]; omega
    apply words_ext (length_B _) (by rw [Bytes.length_xor, length_B, hl]; rfl)
    intro q hq
    rw [XoofffSimd.wd_xor (length_B _) hl hq, wd_take (by omega), wd_B _ hq, XoodooPlanes.wd_B _ hq]
    generalize wd (input.drop p) = W
    interval_cases q <;> exact BitVec.xor_comm _ _

theorem compressLoop_ok {C : Farfalle.Cfg} (hw : C.width = 48) (hp : C.permute = P6) (hrc : C.rollc = Xoofff.rollc) (input : Bytes) :
    ∀ (fuel : Nat) (m : M) (p len : Nat), 48 ≤ len → p + len ≤ input.length → len < 2 ^ 32 → len < fuel →
      ∃ m', compressLoop input fuel m p (len - 48) = some (m', p + len / 48 * 48) ∧
        Farfalle.eat C (len / 48) (B (at3' m 6), B (at3' m 9)) (input.drop p) = (B (at3' m' 6), B (at3' m' 9)) := by
  intro fuel
  induction fuel with
  | zero => intro m p len _ _ _ h; omega
  | succ fuel ih =>
    intro m p len h1 h2 h3 h4
    obtain ⟨m1, a1, a2, a3, a4⟩ := compressIn_ok input p m (by omega)
    obtain ⟨m2, b1, b2, b3⟩ := B_rounds6b m1 a2
    have f : ∀ k, 6 ≤ k → m2.q k = m.q k := fun k hk => (b2 k hk).trans (a3 k hk)
    have f6 : at3' m2 6 = at3' m 6 := by rw [at3', at3', f 6 (by omega), f (6 + 1) (by omega), f (6 + 2) (by omega)]
    have f9 : at3' m2 9 = at3' m 9 := by rw [at3', at3', f 9 (by omega), f (9 + 1) (by omega), f (9 + 2) (by omega)]
    have hk := compressOut_k m2
    have hx := compressOut_x m2
    rw [f6] at hk
    rw [f9, b3, a4] at hx
    rw [compressLoop, a1, Option.bind_eq_bind, Option.bind_some, b1, Option.bind_some]
    dsimp only
    generalize compressOut m2 = m3 at *
    have he : Farfalle.eat C (len / 48) (B (at3' m 6), B (at3' m 9)) (input.drop p) =
        Farfalle.eat C ((len - 48) / 48) (B (at3' m3 6), B (at3' m3 9)) (input.drop (p + 48)) := by
      rw [show len / 48 = (len - 48) / 48 + 1 by omega, Farfalle.eat, hw, hp, hk, hx, Farfalle.rc, hrc, List.drop_drop]
      rfl
    rw [he]
    by_cases hc : len - 48 ≥ 48
    · obtain ⟨m', i1, i2⟩ := ih m3 (p + 48) (len - 48) hc (by omega) (by omega) (by omega)
      rw [if_neg (by omega), sub32_eq hc (by omega), i1]
      exact ⟨m', by rw [show p + 48 + (len - 48) / 48 * 48 = p + len / 48 * 48 by omega], i2⟩
    · rw [if_pos (by omega), show (len - 48) / 48 = 0 by omega]
      exact ⟨_, by rw [show p + len / 48 * 48 = p + 48 by omega], rfl⟩

theorem expandStore_ok (m : M) (out : Bytes) (p : Nat) (h : p + 48 ≤ out.length) :
    ∃ m', expandStore m out p = some (m', Bytes.setAt out p (Bytes.xor (B (at3' m 6)) (B (planes m)))) ∧ ∀ k, 6 ≤ k → m'.q k = m.q k := by
  have e := XoodooPlanes.store3_ok out p ⟨fun l => m.q 0 l ^^^ m.q 6 l, fun l => m.q 1 l ^^^ m.q 7 l, fun l => m.q 2 l ^^^ m.q 8 l⟩ h
  have hx : B ⟨fun l => m.q 0 l ^^^ m.q 6 l, fun l => m.q 1 l ^^^ m.q 7 l, fun l => m.q 2 l ^^^ m.q 8 l⟩ =
      Bytes.xor (B (at3' m 6)) (B (planes m)) := by
    rw [← XoodooPlanes.B_xor3]
    congr 1
    simp only [XoodooPlanes.xor3, at3', planes, Planes.mk.injEq]
    exact ⟨funext fun l => BitVec.xor_comm _ _, funext fun l => BitVec.xor_comm _ _, funext fun l => BitVec.xor_comm _ _⟩
  rw [hx] at e
  refine ⟨veor 2 2 8 (veor 1 1 7 (veor 0 0 6 m)), ?_, fun k hk => ?_⟩
  · have e' : expandStore m out p = (XoodooPlanes.store3 out p
        ⟨fun l => m.q 0 l ^^^ m.q 6 l, fun l => m.q 1 l ^^^ m.q 7 l, fun l => m.q 2 l ^^^ m.q 8 l⟩).bind
          fun o => some (veor 2 2 8 (veor 1 1 7 (veor 0 0 6 m)), o) := by
      unfold expandStore XoodooPlanes.store3
      simp only [Option.bind_eq_bind, Option.bind_assoc]
      rfl
    rw [e', e]; rfl
  · obtain ⟨j, rfl⟩ : ∃ j, k = j + 6 := ⟨k - 6, by omega⟩
    rfl

theorem expandLoop_ok {C : Farfalle.Cfg} (hp : C.permute = P6) (hre : C.rolle = Xoofff.rolle) :
    ∀ (fuel : Nat) (m : M) (out : Bytes) (p len : Nat), 48 ≤ len → p + len ≤ out.length → len < 2 ^ 32 → len < fuel →
      ∃ m', expandLoop fuel m out p (len - 48) =
          some (m', Bytes.setAt out p (Farfalle.gen C (B (at3' m 6)) (len / 48) (B (at3' m 9))), p + len / 48 * 48) ∧
        Nat.repeat (Farfalle.re C) (len / 48) (B (at3' m 9)) = B (at3' m' 9) := by
  have hr : Farfalle.re C = re1 := by funext y; rw [Farfalle.re, hre]; rfl
  intro fuel
  induction fuel with
  | zero => intro m out p len _ _ _ h; omega
  | succ fuel ih =>
    intro m out p len h1 h2 h3 h4
    obtain ⟨m1, a1, a2, a3⟩ := B_rounds6b (expandIn m) rfl
    have a3' : B (planes m1) = P6 (B (at3' m 9)) := a3
    have a2' : ∀ k, 6 ≤ k → m1.q k = m.q k := fun k hk => (a2 k hk).trans (by
      obtain ⟨j, rfl⟩ : ∃ j, k = j + 6 := ⟨k - 6, by omega⟩
      rfl)
    obtain ⟨m2, b1, b2⟩ := expandStore_ok m1 out p (by omega)
    have f : ∀ k, 6 ≤ k → m2.q k = m.q k := fun k hk => (b2 k hk).trans (a2' k hk)
    have f1 : at3' m1 6 = at3' m 6 := by rw [at3', at3', a2' 6 (by omega), a2' (6 + 1) (by omega), a2' (6 + 2) (by omega)]
    have f9 : at3' m2 9 = at3' m 9 := by rw [at3', at3', f 9 (by omega), f (9 + 1) (by omega), f (9 + 2) (by omega)]
    have f6 : at3' (expandRoll m2) 6 = at3' m 6 := by
      have : at3' (expandRoll m2) 6 = at3' m2 6 := rfl
      rw [this, at3', at3', f 6 (by omega), f (6 + 1) (by omega), f (6 + 2) (by omega)]
    have hy := expandRoll_y m2
    rw [f9] at hy
    rw [a3', f1] at b1
    rw [expandLoop, a1, Option.bind_eq_bind, Option.bind_some, b1, Option.bind_eq_bind, Option.bind_some]
    dsimp only
    generalize expandRoll m2 = m3 at *
    have he : Farfalle.gen C (B (at3' m 6)) (len / 48) (B (at3' m 9)) =
        Bytes.xor (B (at3' m 6)) (P6 (B (at3' m 9))) ++ Farfalle.gen C (B (at3' m 6)) ((len - 48) / 48) (B (at3' m3 9)) := by
      rw [show len / 48 = (len - 48) / 48 + 1 by omega, Farfalle.gen, hp, hy, hr]
    have hn : Nat.repeat (Farfalle.re C) (len / 48) (B (at3' m 9)) = Nat.repeat (Farfalle.re C) ((len - 48) / 48) (B (at3' m3 9)) := by
      rw [show len / 48 = 1 + (len - 48) / 48 by omega, XoofffSimd.repeat_add, hy, hr]
      rfl
    have hl : (Bytes.xor (B (at3' m 6)) (P6 (B (at3' m 9)))).length = 48 := by
      rw [← a3', Bytes.length_xor, length_B, length_B]; rfl
    rw [he, hn]
    generalize Bytes.xor (B (at3' m 6)) (P6 (B (at3' m 9))) = O at hl
    by_cases hc : len - 48 ≥ 48
    · obtain ⟨m', i1, i2⟩ := ih m3 (Bytes.setAt out p O) (p + 48) (len - 48) hc (by rw [Bytes.length_setAt]; omega) (by omega) (by omega)
      rw [if_neg (by omega), sub32_eq hc (by omega), i1]
      refine ⟨m', ?_, i2⟩
      have := Bytes.setAt_append out p O (Farfalle.gen C (B (at3' m 6)) ((len - 48) / 48) (B (at3' m3 9)))
      rw [hl] at this
      rw [f6, this, show p + 48 + (len - 48) / 48 * 48 = p + len / 48 * 48 by omega]
    · rw [if_pos (by omega), show (len - 48) / 48 = 0 by omega]
      refine ⟨_, ?_, rfl⟩
      rw [Farfalle.gen, List.append_nil, show p + len / 48 * 48 = p + 48 by omega]

/-! ### `Xoofff_AddIs` -/

theorem bytesOfVec4 (v : Vec 4) : bytesOfVec v = bytesOfWord (v 0) ++ (bytesOfWord (v 1) ++ (bytesOfWord (v 2) ++ bytesOfWord (v 3))) := by
  simp [bytesOfVec, List.finRange]

theorem wd_step (b : Bytes) (a k : Nat) : wd (b.drop a) k = wd (b.drop (a + 4 * k)) 0 := by
  rw [wd, wd, List.drop_drop, List.drop_drop, Nat.mul_zero, Nat.add_zero]

theorem vec_mix (st d : Bytes) (a j : Nat) (v : Vec 4) (hv : ∀ l : Fin 4, v l = wd (st.drop a) (0 + l.val) ^^^ wd (d.drop j) (0 + l.val)) :
    bytesOfVec v = X86.mixOf st d a j 16 := by
  have e : ∀ l : Fin 4, bytesOfWord (v l) = X86.mixOf st d (a + 4 * l.val) (j + 4 * l.val) 4 := fun l => by
    rw [hv, Nat.zero_add, wd_step, wd_step d, XoodooArm.bytesOfWord_mix]
  have h1 := X86.mixOf_add st d a j 4 12
  have h2 := X86.mixOf_add st d (a + 4) (j + 4) 4 8
  have h3 := X86.mixOf_add st d (a + 8) (j + 8) 4 4
  rw [bytesOfVec4, e 0, e 1, e 2, e 3, ← h1, ← h2]
  simp only [Nat.add_assoc, Nat.reduceAdd] at h3 ⊢
  rw [← h3]
  rfl

theorem add16_ok (m : M) (d st : Bytes) (a j : Nat) (h : a + 16 ≤ st.length) (hd : j + 16 ≤ d.length) :
    add16 m d ⟨st, a, j⟩ = some ⟨Bytes.xorAt st a (Bytes.slice d j 16), a + 16, j + 16⟩ := by
  have e1 := fun m => vld1_ok d j 0 0 m (by omega)
  have e2 := fun m => vld1_ok st a 0 1 m (by omega)
  simp only [Nat.mul_zero, Nat.add_zero] at e1 e2
  unfold add16
  simp only [e1, e2, Option.bind_eq_bind, Option.bind_some]
  rw [storeVec_eq _ _ _ (by omega), Option.bind_some, vec_mix st d a j (M.q _ 1), Armv8Asm.setAt_mix _ _ _ _ _ hd]
  exact fun l => rfl

theorem addBlock_ok (m : M) (d st : Bytes) (a j : Nat) (h : a + 48 ≤ st.length) (hd : j + 48 ≤ d.length) :
    addBlock m d ⟨st, a, j⟩ = some ⟨Bytes.xorAt st a (Bytes.slice d j 48), a + 48, j + 48⟩ := by
  have f1 := fun m => vld1_ok d j 0 0 m (by omega)
  have f2 := fun m => vld1_ok d (j + 16) 0 1 m (by omega)
  have f3 := fun m => vld1_ok d (j + 32) 0 2 m (by omega)
  have g1 := fun m => vld1_ok st a 0 8 m (by omega)
  have g2 := fun m => vld1_ok st (a + 16) 0 9 m (by omega)
  have g3 := fun m => vld1_ok st (a + 32) 0 10 m (by omega)
  simp only [Nat.mul_zero, Nat.add_zero] at f1 f2 f3 g1 g2 g3
  unfold addBlock
  simp only [f1, f2, f3, g1, g2, g3, Option.bind_eq_bind, Option.bind_some]
  generalize hm : veor 10 10 2 _ = m'
  have h8 : ∀ l : Fin 4, m'.q 8 l = wd (st.drop a) (0 + l.val) ^^^ wd (d.drop j) (0 + l.val) := by subst hm; exact fun l => rfl
  have h9 : ∀ l : Fin 4, m'.q 9 l = wd (st.drop (a + 16)) (0 + l.val) ^^^ wd (d.drop (j + 16)) (0 + l.val) := by subst hm; exact fun l => rfl
  have h10 : ∀ l : Fin 4, m'.q 10 l = wd (st.drop (a + 32)) (0 + l.val) ^^^ wd (d.drop (j + 32)) (0 + l.val) := by subst hm; exact fun l => rfl
  rw [show a + 32 + 16 - 48 = a by omega, storeVec_eq _ _ _ (by omega), Option.bind_some, storeVec_eq _ _ _ (by rw [Bytes.length_setAt]; omega),
    Option.bind_some, storeVec_eq _ _ _ (by rw [Bytes.length_setAt, Bytes.length_setAt]; omega), Option.bind_some,
    vec_mix st d a j (M.q _ 8) h8, vec_mix st d (a + 16) (j + 16) (M.q _ 9) h9, vec_mix st d (a + 32) (j + 32) (M.q _ 10) h10]
  have hm : ∀ n, (X86.mixOf st d a j n).length = n := fun n => by simp [X86.mixOf]
  have hs : ∀ k n, Bytes.setAt (Bytes.setAt st a (X86.mixOf st d a j k)) (a + k) (X86.mixOf st d (a + k) (j + k) n) =
      Bytes.setAt st a (X86.mixOf st d a j (k + n)) := fun k n => by
    have e := Bytes.setAt_append st a (X86.mixOf st d a j k) (X86.mixOf st d (a + k) (j + k) n)
    rwa [hm k, X86.mixOf_add] at e
  rw [hs 16 16, hs 32 16, Armv8Asm.setAt_mix _ _ _ _ _ hd]

theorem addIs_eq (m : M) (t s : Bytes) (n : Nat) (ht : (n + 7) / 8 ≤ t.length) (hs : (n + 7) / 8 ≤ s.length) (h32 : n < 2 ^ 32) :
    addIs m t s n = Farfalle.addIs t s n := by
  rw [← XoodooArm.addIs_eq t s n ht hs h32, XoodooArm.addIs_run t s n ht hs h32]
  exact XoodooArm.addIsWith_run (addBlock m s) (add16 m s) t s n ht hs h32 (addBlock_ok m s) (add16_ok m s)

end XoodooNeon
