import Verif.Proofs.XoodooPlanes
import Verif.Proofs.XoofffWords
import Verif.Proofs.Xoodyak

/-!
The full-block functions of Xoodyak on planes do what those of the plain implementation do.
-/

namespace XoodooPlanes

open Xoodoo (Lane Lanes bytesOfLanes lanesOfBytes byteOf bytesOfWord wordOfBytes)
open Simd32 (Vec wd loadVec storeVec loadWord storeWord bytesOfVec byteOf_wd)
open XoofffSimd (words_ext wd_bytesOfLanes wd_take)

/-- The 48 bytes held by the registers. -/
def B (s : Planes) : Bytes := bytesOfLanes (vars2State s)

theorem length_B (s : Planes) : (B s).length = 48 := Xoodoo.length_bytesOfLanes _

theorem B_rounds12 (isa : Isa) (s : Planes) : B (rounds12 isa s) = Xoodoo.Ref.permute12 (B s) := by
  rw [B, vars_rounds12, Xoodoo.Ref.permute12, Xoodoo.Ref.permuteNrounds, B, Xoodoo.lanesOfBytes_bytesOfLanes]

theorem B_rounds6 (isa : Isa) (s : Planes) : B (rounds6 isa s) = Xoodoo.Ref.permute6 (B s) := by
  rw [B, vars_rounds6, Xoodoo.Ref.permute6, Xoodoo.Ref.permuteNrounds, B, Xoodoo.lanesOfBytes_bytesOfLanes]

theorem wd_B (s : Planes) {p : Nat} (hp : p < 12) : wd (B s) p = vars2State s ⟨p, hp⟩ := wd_bytesOfLanes _ hp

theorem wd_xorAt (s d : Bytes) (a p : Nat) (hp : 4 * p + 4 ≤ s.length) :
    wd (Bytes.xorAt s (4 * a) d) p = wd s p ^^^ (if a ≤ p then wd d (p - a) else 0) := by
  apply Xoodoo.lane_ext
  intro k hk
  rw [Xoodoo.byteOf_xor, byteOf_wd _ _ _ hk, byteOf_wd _ _ _ hk, Bytes.getD_xorAt _ _ _ _ (by omega)]
  by_cases h : a ≤ p
  · rw [if_pos h, if_pos (by omega), byteOf_wd _ _ _ hk, show 4 * p + k - 4 * a = 4 * (p - a) + k by omega]
  · rw [if_neg h, if_neg (by omega)]
    congr 1
    apply BitVec.eq_of_getLsbD_eq
    intro t ht
    rw [Xoodoo.getLsbD_byteOf _ _ _ ht]
    simp

theorem wd_ge {d : Bytes} {p : Nat} (h : d.length ≤ 4 * p) : wd d p = 0 := by
  rw [wd, List.drop_eq_nil_of_le h]; rfl

theorem wd_take' {d : Bytes} {n p : Nat} : wd (d.take (4 * n)) p = if p < n then wd d p else 0 := by
  split
  · exact wd_take (by omega)
  · exact wd_ge (by simp; omega)

theorem wd_one (p : Nat) : wd [1] p = if p = 0 then 1 else 0 := by
  split
  · rename_i h; subst h; rfl
  · exact wd_ge (by simp; omega)

/-- A block of `n` words and the padding byte. -/
theorem wd_pad (s d : Bytes) (n p : Nat) (hs : s.length = 48) (hp : p < 12) :
    wd (Bytes.xorAt (Bytes.xorAt s 0 (d.take (4 * n))) (4 * n) [1]) p =
      wd s p ^^^ (if p < n then wd d p else 0) ^^^ (if p = n then 1 else 0) := by
  rw [wd_xorAt _ _ _ _ (by rw [Bytes.length_xorAt]; omega), show (0 : Nat) = 4 * 0 from rfl, wd_xorAt _ _ _ _ (by omega),
    if_pos (Nat.zero_le _), Nat.sub_zero, wd_take', wd_one]
  congr 1
  by_cases h : n ≤ p
  · rw [if_pos h]; congr 1; exact propext (by omega)
  · rw [if_neg h, if_neg (by omega)]

theorem load_ok (n : Nat) (buf : Bytes) (i k : Nat) (h : i + 4 * k + 4 * n ≤ buf.length) :
    loadVec n buf (i + 4 * k) = some fun l => wd (buf.drop i) (k + l.val) := by
  have e : loadVec n buf (i + 4 * k) = loadVec n (buf.drop i) (4 * k) := by rw [loadVec, loadVec, List.drop_drop]
  rw [e, Simd32.loadVec_ok _ _ _ (by rw [List.length_drop]; omega)]

theorem loadWord_ok (buf : Bytes) (i k : Nat) (h : i + 4 * k + 4 ≤ buf.length) :
    loadWord buf (i + 4 * k) = some (wd (buf.drop i) k) := by
  have e : loadWord buf (i + 4 * k) = loadWord (buf.drop i) (4 * k) := by rw [loadWord, loadWord, List.drop_drop]
  rw [e, Simd32.loadWord_ok _ _ (by rw [List.length_drop]; omega)]

theorem storeVec_eq {n : Nat} (buf : Bytes) (o : Nat) (v : Vec n) (h : o + 4 * n ≤ buf.length) :
    storeVec buf o v = some (Bytes.setAt buf o (bytesOfVec v)) := by
  rw [storeVec, SnP.overwriteBytes, if_pos (by rw [Simd32.length_bytesOfVec]; omega)]

theorem B_eq (s : Planes) : B s = bytesOfVec s.a0 ++ (bytesOfVec s.a1 ++ bytesOfVec s.a2) := rfl

theorem vec4 (v : Vec 4) : bytesOfVec v = bytesOfWord (v 0) ++ bytesOfWord (v 1) ++ (bytesOfWord (v 2) ++ bytesOfWord (v 3)) := rfl

theorem take16 (s : Planes) : (B s).take 16 = bytesOfVec s.a0 := by
  rw [B_eq]; exact List.take_left' (Simd32.length_bytesOfVec _)

theorem take24 (s : Planes) : (B s).take 24 = bytesOfVec s.a0 ++ (bytesOfWord (s.a1 0) ++ bytesOfWord (s.a1 1)) := by
  have e : B s = (bytesOfVec s.a0 ++ (bytesOfWord (s.a1 0) ++ bytesOfWord (s.a1 1))) ++
      ((bytesOfWord (s.a1 2) ++ bytesOfWord (s.a1 3)) ++ bytesOfVec s.a2) := by
    rw [B_eq, vec4 s.a1]; simp only [List.append_assoc]
  rw [e]; exact List.take_left' rfl

/-! ### Absorbing -/

theorem addKeyed_ok (s : Planes) (X : Bytes) (h : 44 ≤ X.length) :
    ∃ s', addKeyed s X = some s' ∧ B s' = Bytes.xorAt (Bytes.xorAt (B s) 0 (X.take 44)) 44 [1] := by
  refine ⟨⟨Simd32.xor s.a0 fun l => wd X (0 + l.val), Simd32.xor s.a1 fun l => wd X (4 + l.val),
    Simd32.xor s.a2 (setEpi32 1 (wd X 10) (wd X 9) (wd X 8))⟩, ?_, ?_⟩
  · have e1 : loadVec 4 X 0 = some fun l => wd X (0 + l.val) := load_ok 4 X 0 0 (by omega)
    have e2 : loadVec 4 X 16 = some fun l => wd X (4 + l.val) := load_ok 4 X 0 4 (by omega)
    have e3 : loadWord X 40 = some (wd X 10) := loadWord_ok X 0 10 (by omega)
    have e4 : loadWord X 36 = some (wd X 9) := loadWord_ok X 0 9 (by omega)
    have e5 : loadWord X 32 = some (wd X 8) := loadWord_ok X 0 8 (by omega)
    unfold addKeyed
    simp only [Option.bind_eq_bind]
    rw [e1, Option.bind_some, e2, Option.bind_some, e3, Option.bind_some, e4, Option.bind_some, e5, Option.bind_some]
  · apply words_ext (length_B _) (by simp [length_B])
    intro p hp
    rw [show (44 : Nat) = 4 * 11 from rfl, wd_pad _ _ _ _ (length_B s) hp, wd_B _ hp, wd_B _ hp]
    interval_cases p <;> first | exact BitVec.xor_zero.symm | exact congrArg (· ^^^ _) BitVec.xor_zero.symm

theorem addHash_ok (s : Planes) (X : Bytes) (h : 16 ≤ X.length) :
    ∃ s', addHash s X = some s' ∧ B s' = Bytes.xorAt (Bytes.xorAt (B s) 0 (X.take 16)) 16 [1] := by
  refine ⟨⟨Simd32.xor s.a0 fun l => wd X (0 + l.val), Simd32.xor s.a1 (setEpi32 0 0 0 1), s.a2⟩, ?_, ?_⟩
  · have e1 : loadVec 4 X 0 = some fun l => wd X (0 + l.val) := load_ok 4 X 0 0 (by omega)
    unfold addHash
    simp only [Option.bind_eq_bind]
    rw [e1, Option.bind_some]
  · apply words_ext (length_B _) (by simp [length_B])
    intro p hp
    rw [show (16 : Nat) = 4 * 4 from rfl, wd_pad _ _ _ _ (length_B s) hp, wd_B _ hp, wd_B _ hp]
    interval_cases p <;> first | exact BitVec.xor_zero.symm | exact congrArg (· ^^^ _) BitVec.xor_zero.symm |
      exact (BitVec.xor_zero.trans BitVec.xor_zero).symm

theorem sub64_eq {a b : Nat} (h : b ≤ a) (ha : a < 2 ^ 64) : sub64 a b = a - b := by unfold sub64; omega

theorem absorbLoop_ok (isa : Isa) (r : Nat) (hr : r < 48) (add : Planes → Bytes → Option Planes)
    (hadd : ∀ s X, r ≤ X.length → ∃ s', add s X = some s' ∧ B s' = Bytes.xorAt (Bytes.xorAt (B s) 0 (X.take r)) r [1]) :
    ∀ (fuel : Nat) (s : Planes) (X : Bytes) (XLen : Nat), 0 < r → r ≤ XLen → XLen ≤ X.length → XLen < 2 ^ 64 → XLen < fuel →
      ∃ s' X' n, Xoodyak.absorbFullBlocks Xoodoo.Ref.permute12 r fuel (B s) X XLen = some (B s', X', n) ∧
        absorbLoop isa r add fuel s X XLen = some (s', n) ∧ n ≤ XLen := by
  intro fuel
  induction fuel with
  | zero => intro s X XLen _ _ _ _ h; omega
  | succ fuel ih =>
    intro s X XLen h0 h1 h2 h3 h4
    obtain ⟨s1, e1, e2⟩ := hadd (rounds12 isa s) X (by omega)
    have hl : (Xoodoo.Ref.permute12 (B s)).length = 48 := by rw [← B_rounds12 isa, length_B]
    rw [B_rounds12] at e2
    have hd : (X.take r).length = r := by simp; omega
    rw [Xoodyak.absorbFullBlocks, SnP.readBuf_some (by omega), absorbLoop, e1]
    simp only [Option.bind_eq_bind, Option.bind_some]
    rw [Xoodyak.addBytes_some (by rw [hl]; omega)]
    simp only [Option.bind_some]
    rw [Xoodyak.addByte_some (by rw [Bytes.length_xorAt, hl]; omega)]
    simp only [Option.bind_some]
    rw [show (0x01 : Byte) = 1 from rfl, ← e2, sub64_eq h1 h3]
    by_cases hc : XLen - r ≥ r
    · obtain ⟨s', X', n, i1, i2, i3⟩ := ih s1 (X.drop r) (XLen - r) h0 hc (by rw [List.length_drop]; omega) (by omega) (by omega)
      rw [if_pos hc, if_pos hc]
      exact ⟨s', X', n, i1, i2, by omega⟩
    · rw [if_neg hc, if_neg hc]
      exact ⟨s1, _, _, rfl, rfl, by omega⟩

/-! ### Squeezing -/

theorem storeKeyed_ok (s : Planes) (Y : Bytes) (o : Nat) (h : o + 24 ≤ Y.length) :
    storeKeyed s Y o = some (Bytes.setAt Y o ((B s).take 24)) := by
  unfold storeKeyed
  simp only [Option.bind_eq_bind]
  rw [storeVec_eq _ _ _ (by omega), Option.bind_some, storeLow, SnP.overwriteBytes, if_pos (by simp [Xoodoo.length_bytesOfWord]; omega), take24,
    ← Bytes.setAt_append Y o (bytesOfVec s.a0), Simd32.length_bytesOfVec]

theorem storeHash_ok (s : Planes) (Y : Bytes) (o : Nat) (h : o + 16 ≤ Y.length) :
    storeHash s Y o = some (Bytes.setAt Y o ((B s).take 16)) := by
  unfold storeHash
  rw [storeVec_eq _ _ _ (by omega), take16]

theorem B_one (s : Planes) : B { s with a0 := Simd32.xor s.a0 (setEpi32 0 0 0 1) } = Bytes.xorAt (B s) 0 [1] := by
  apply words_ext (length_B _) (by simp [length_B])
  intro p hp
  have := wd_pad (B s) [] 0 p (length_B s) hp
  rw [List.take_nil, Bytes.xorAt_nil, Nat.mul_zero] at this
  rw [this, wd_B _ hp, wd_B _ hp]
  interval_cases p <;> first | exact congrArg (· ^^^ _) BitVec.xor_zero.symm | exact (BitVec.xor_zero.trans BitVec.xor_zero).symm

theorem squeezeLoop_ok (isa : Isa) (r : Nat) (hr : r ≤ 48) (store : Planes → Bytes → Nat → Option Bytes)
    (hstore : ∀ s Y o, o + r ≤ Y.length → store s Y o = some (Bytes.setAt Y o ((B s).take r))) :
    ∀ (fuel : Nat) (s : Planes) (Y : Bytes) (o YLen : Nat), 0 < r → r ≤ YLen → o + YLen ≤ Y.length → YLen < 2 ^ 64 → YLen < fuel →
      ∃ s' out n, Xoodyak.squeezeFullBlocks Xoodoo.Ref.permute12 r fuel (B s) YLen = some (B s', out, n) ∧
        squeezeLoop isa r store fuel s Y o YLen = some (s', Bytes.setAt Y o out, n) ∧ n ≤ YLen ∧ out.length = YLen - n := by
  intro fuel
  induction fuel with
  | zero => intro s Y o YLen _ _ _ _ h; omega
  | succ fuel ih =>
    intro s Y o YLen h0 h1 h2 h3 h4
    rw [Xoodyak.squeezeFullBlocks, Xoodyak.addByte_some (by rw [length_B]; omega), squeezeLoop]
    simp only [Option.bind_eq_bind, Option.bind_some]
    rw [show (0x01 : Byte) = 1 from rfl, ← B_one, ← B_rounds12 isa]
    generalize rounds12 isa { s with a0 := Simd32.xor s.a0 (setEpi32 0 0 0 1) } = s1
    rw [Xoodyak.extractBytes_some (by rw [length_B]; omega), Option.bind_some, hstore _ _ _ (by omega), Option.bind_some, if_neg (by omega),
      sub64_eq h1 h3]
    have hl : ((B s1).take r).length = r := by rw [List.length_take, length_B]; omega
    have hsl : Bytes.slice (B s1) 0 r = (B s1).take r := by rw [Bytes.slice, List.drop_zero]
    by_cases hc : YLen - r ≥ r
    · obtain ⟨s', out, n, i1, i2, i3, i4⟩ := ih s1 (Bytes.setAt Y o ((B s1).take r)) (o + r) (YLen - r) h0 hc
        (by rw [Bytes.length_setAt]; omega) (by omega) (by omega)
      rw [if_pos hc, if_pos hc, i1, Option.bind_some]
      refine ⟨s', (B s1).take r ++ out, n, ?_, ?_, by omega, by rw [List.length_append, hl, i4]; omega⟩
      · rw [hsl]
      · rw [i2]
        have := Bytes.setAt_append Y o ((B s1).take r) out
        rw [hl] at this
        rw [this]
    · rw [if_neg hc, if_neg hc, hsl]
      exact ⟨s1, _, _, rfl, rfl, by omega, by rw [hl]; omega⟩

/-! ### Encrypting and decrypting -/

theorem take24_pad (s d : Bytes) (hs : s.length = 48) (hd : d.length = 24) :
    (Bytes.xorAt (Bytes.xorAt s 0 d) 24 [1]).take 24 = Bytes.xor d (s.take 24) := by
  have hl : (s.take 24).length = 24 := by rw [List.length_take]; omega
  apply Simd32.bytes_ext
  · rw [List.length_take, Bytes.length_xorAt, Bytes.length_xorAt, Bytes.length_xor, hl]; omega
  · intro j hj
    have hj : j < 24 := by rw [List.length_take] at hj; omega
    have e : ∀ x : Bytes, (x.take 24).getD j 0 = x.getD j 0 := by
      intro x; rw [List.getD_eq_getElem?_getD, List.getD_eq_getElem?_getD, List.getElem?_take, if_pos hj]
    rw [Simd32.getD_xor _ _ _ (by omega) (by omega), e, e, Bytes.getD_xorAt _ _ _ _ (by rw [Bytes.length_xorAt]; omega), if_neg (by omega),
      Bytes.getD_xorAt _ _ _ _ (by omega), if_pos (Nat.zero_le _), Nat.sub_zero, BitVec.xor_comm (d.getD j 0)]
    exact BitVec.xor_zero

/-- The registers after adding a block of 24 bytes and the padding byte. -/
theorem B_block (s : Planes) (d : Bytes) :
    B ⟨Simd32.xor s.a0 fun l => wd d (0 + l.val), Simd32.xor s.a1 (setEpi32 0 1 (wd d 5) (wd d 4)), s.a2⟩ =
      Bytes.xorAt (Bytes.xorAt (B s) 0 (d.take 24)) 24 [1] := by
  apply words_ext (length_B _) (by simp [length_B])
  intro p hp
  rw [show (24 : Nat) = 4 * 6 from rfl, wd_pad _ _ _ _ (length_B s) hp, wd_B _ hp, wd_B _ hp]
  interval_cases p <;> first | exact BitVec.xor_zero.symm | exact congrArg (· ^^^ _) BitVec.xor_zero.symm |
    exact (BitVec.xor_zero.trans BitVec.xor_zero).symm

theorem encryptBlock_ok (s : Planes) (mem : Bytes) (i o : Nat) (hi : i + 24 ≤ mem.length) (ho : o + 24 ≤ mem.length) :
    ∃ s', encryptBlock s mem i o = some (s', Bytes.setAt mem o (Bytes.xor ((mem.drop i).take 24) ((B s).take 24))) ∧
      B s' = Bytes.xorAt (Bytes.xorAt (B s) 0 ((mem.drop i).take 24)) 24 [1] := by
  have hB := B_block s (mem.drop i)
  have hd : ((mem.drop i).take 24).length = 24 := by rw [List.length_take, List.length_drop]; omega
  refine ⟨⟨Simd32.xor s.a0 fun l => wd (mem.drop i) (0 + l.val),
    Simd32.xor s.a1 (setEpi32 0 1 (wd (mem.drop i) 5) (wd (mem.drop i) 4)), s.a2⟩, ?_, hB⟩
  have e1 : loadVec 4 mem i = some fun l => wd (mem.drop i) (0 + l.val) := load_ok 4 mem i 0 (by omega)
  have e2 : loadWord mem (i + 20) = some (wd (mem.drop i) 5) := loadWord_ok mem i 5 (by omega)
  have e3 : loadWord mem (i + 16) = some (wd (mem.drop i) 4) := loadWord_ok mem i 4 (by omega)
  unfold encryptBlock
  simp only [Option.bind_eq_bind]
  rw [e1, Option.bind_some, e2, Option.bind_some, e3, Option.bind_some, storeKeyed_ok _ _ _ ho, Option.bind_some, hB,
    take24_pad _ _ (length_B s) hd]

theorem wd_other (mem x : Bytes) (a i k : Nat) (h : i + 4 * k + 4 ≤ a ∨ a + x.length ≤ i + 4 * k) :
    wd ((Bytes.setAt mem a x).drop i) k = wd (mem.drop i) k := by
  apply Xoodoo.lane_ext
  intro j hj
  rw [byteOf_wd _ _ _ hj, byteOf_wd _ _ _ hj]
  simp only [List.getD_eq_getElem?_getD, List.getElem?_drop, Bytes.getElem?_setAt]
  cases mem[i + (4 * k + j)]? with
  | none => rfl
  | some b => simp only [Option.map_some, Option.getD_some]; rw [if_neg (by omega)]

theorem wd_same (mem : Bytes) (x : Bytes) (a k : Nat) (h : a + x.length ≤ mem.length) (hk : 4 * k + 4 ≤ x.length) :
    wd ((Bytes.setAt mem a x).drop a) k = wd x k := by
  apply Xoodoo.lane_ext
  intro j hj
  rw [byteOf_wd _ _ _ hj, byteOf_wd _ _ _ hj]
  simp only [List.getD_eq_getElem?_getD, List.getElem?_drop, Bytes.getElem?_setAt]
  rw [List.getElem?_eq_getElem (show a + (4 * k + j) < mem.length by omega)]
  simp only [Option.map_some, Option.getD_some]
  rw [if_pos (by omega), show a + (4 * k + j) - a = 4 * k + j by omega]

theorem setAt_word (mem : Bytes) (o : Nat) (v w : Lane) :
    Bytes.setAt (Bytes.setAt mem o (bytesOfWord v)) (o + 4) (bytesOfWord w) = Bytes.setAt mem o (bytesOfWord v ++ bytesOfWord w) := by
  have := Bytes.setAt_append mem o (bytesOfWord v) (bytesOfWord w)
  rwa [Xoodoo.length_bytesOfWord] at this

theorem storeWord_eq (buf : Bytes) (o : Nat) (w : Lane) (h : o + 4 ≤ buf.length) :
    storeWord buf o w = some (Bytes.setAt buf o (bytesOfWord w)) := by
  rw [storeWord, SnP.overwriteBytes, if_pos (by rw [Xoodoo.length_bytesOfWord]; omega)]

theorem store64_eq (buf : Bytes) (o : Nat) (w : Lane × Lane) (h : o + 8 ≤ buf.length) :
    store64 buf o w = some (Bytes.setAt buf o (bytesOfWord w.1 ++ bytesOfWord w.2)) := by
  rw [store64, SnP.overwriteBytes, if_pos (by simp [Xoodoo.length_bytesOfWord]; omega)]

/-- The bytes written by `decryptHalf`. -/
def half (a1 : Vec 4) (d : Bytes) : Bytes := bytesOfWord (wd d 4 ^^^ a1 0) ++ bytesOfWord (wd d 5 ^^^ a1 1)

/-- The words of the memory that are read back after the store. -/
def back (a1 : Vec 4) (mem : Bytes) (i o k : Nat) : Lane := wd ((Bytes.setAt mem (o + 16) (half a1 (mem.drop i))).drop i) k

/-- All variants of the code for bytes 16 to 23; in the first variant the second word is read after the first store. -/
theorem decryptHalf_ok (v : Half) (a1 : Vec 4) (mem : Bytes) (i o : Nat) (hi : i + 24 ≤ mem.length) (ho : o + 24 ≤ mem.length)
    (hov : i = o ∨ i + 24 ≤ o ∨ o + 24 ≤ i) :
    decryptHalf v a1 mem i o = some (Simd32.ofList 4 [back a1 mem i o 4, back a1 mem i o 5, a1 2, a1 3],
      Bytes.setAt mem (o + 16) (half a1 (mem.drop i))) := by
  have e4 : ∀ m : Bytes, m.length = mem.length → loadWord m (i + 16) = some (wd (m.drop i) 4) := fun m hm => loadWord_ok m i 4 (by omega)
  have e5 : ∀ m : Bytes, m.length = mem.length → loadWord m (i + 20) = some (wd (m.drop i) 5) := fun m hm => loadWord_ok m i 5 (by omega)
  have l64 : ∀ m : Bytes, m.length = mem.length → load64 m (i + 16) = some (wd (m.drop i) 4, wd (m.drop i) 5) := by
    intro m hm
    unfold load64
    simp only [Option.bind_eq_bind]
    rw [e4 m hm, Option.bind_some, show i + 16 + 4 = i + 20 from rfl, e5 m hm, Option.bind_some]
  cases v
  · unfold decryptHalf
    simp only [Option.bind_eq_bind]
    rw [e4 _ rfl, Option.bind_some, storeWord_eq _ _ _ (by omega), Option.bind_some, e5 _ (by simp), Option.bind_some,
      wd_other _ _ _ _ _ (by rw [Xoodoo.length_bytesOfWord]; omega), storeWord_eq _ _ _ (by simp; omega), Option.bind_some,
      show o + 20 = o + 16 + 4 from rfl, setAt_word]
    rw [e4 _ (by simp), Option.bind_some, e5 _ (by simp), Option.bind_some]
    congr 2
    funext l; fin_cases l <;> rfl
  · unfold decryptHalf
    simp only [Option.bind_eq_bind]
    rw [l64 _ rfl, Option.bind_some, store64_eq _ _ _ (by omega), Option.bind_some, l64 _ (by simp), Option.bind_some]
    congr 2
    funext l; fin_cases l <;> rfl
  · unfold decryptHalf
    simp only [Option.bind_eq_bind]
    rw [l64 _ rfl, Option.bind_some, store64_eq _ _ _ (by omega), Option.bind_some, l64 _ (by simp), Option.bind_some]
    congr 2

theorem back_other (a1 : Vec 4) (mem : Bytes) (i o k : Nat) (hk : k < 6) (h : i + 24 ≤ o ∨ o + 24 ≤ i) :
    back a1 mem i o k = wd (mem.drop i) k :=
  wd_other _ _ _ _ _ (by simp [half, Xoodoo.length_bytesOfWord]; omega)

theorem back_same (a1 : Vec 4) (mem : Bytes) (i : Nat) (hi : i + 24 ≤ mem.length) :
    back a1 mem i i 4 = wd (mem.drop i) 4 ^^^ a1 0 ∧ back a1 mem i i 5 = wd (mem.drop i) 5 ^^^ a1 1 := by
  have e : ∀ k, back a1 mem i i (4 + k) = wd ((Bytes.setAt mem (i + 16) (half a1 (mem.drop i))).drop (i + 16)) k := by
    intro k
    rw [back, ← Simd32.wd_drop, List.drop_drop]
  refine ⟨?_, ?_⟩
  · rw [show back a1 mem i i 4 = _ from e 0, wd_same _ _ _ _ (by simp [half, Xoodoo.length_bytesOfWord]; omega)
      (by simp [half, Xoodoo.length_bytesOfWord])]
    exact (Xoodoo.wordOfBytes_take _).symm.trans (Xoodoo.wordOfBytes_bytesOfWord _)
  · rw [show back a1 mem i i 5 = _ from e 1, wd_same _ _ _ _ (by simp [half, Xoodoo.length_bytesOfWord]; omega)
      (by simp [half, Xoodoo.length_bytesOfWord])]
    exact Xoodoo.wordOfBytes_bytesOfWord _

/-- The registers after `decryptBlock`. -/
def decrypted (s : Planes) (mem : Bytes) (i o : Nat) : Planes :=
  ⟨Simd32.xor s.a0 (Simd32.xor s.a0 fun l => wd (mem.drop i) (0 + l.val)),
    Simd32.xor (Simd32.ofList 4 [back s.a1 mem i o 4, back s.a1 mem i o 5, s.a1 2, s.a1 3]) (setEpi32 0 1 0 0), s.a2⟩

theorem setAt_before (mem x y : Bytes) (o n : Nat) (h : x.length = n) :
    Bytes.setAt (Bytes.setAt mem (o + n) y) o x = Bytes.setAt mem o (x ++ y) := by
  subst h
  rw [← Bytes.setAt_append]
  apply List.ext_getElem?; intro j
  simp only [Bytes.getElem?_setAt]
  cases mem[j]? with
  | none => rfl
  | some b =>
    simp only [Option.map_some, Option.some.injEq]
    by_cases h1 : o ≤ j ∧ j < o + x.length
    · rw [if_pos h1, if_neg (by omega), if_pos h1]
    · rw [if_neg h1, if_neg h1]

theorem decryptBlock_eq (v : Half) (s : Planes) (mem : Bytes) (i o : Nat) (hi : i + 24 ≤ mem.length) (ho : o + 24 ≤ mem.length)
    (hov : i = o ∨ i + 24 ≤ o ∨ o + 24 ≤ i) :
    decryptBlock v s mem i o =
      some (decrypted s mem i o, Bytes.setAt mem o (Bytes.xor ((mem.drop i).take 24) ((B s).take 24))) := by
  have hd : ((mem.drop i).take 24).length = 24 := by rw [List.length_take, List.length_drop]; omega
  have e1 : loadVec 4 mem i = some fun l => wd (mem.drop i) (0 + l.val) := load_ok 4 mem i 0 (by omega)
  unfold decryptBlock
  simp only [Option.bind_eq_bind]
  rw [e1, Option.bind_some, decryptHalf_ok v _ _ _ _ hi ho hov, Option.bind_some]
  simp only
  rw [storeVec_eq _ _ _ (by rw [Bytes.length_setAt]; omega), Option.bind_some, setAt_before _ _ _ _ 16 (Simd32.length_bytesOfVec _),
    ← take24_pad _ _ (length_B s) hd, ← B_block s (mem.drop i), take24]
  have h4 : wd (mem.drop i) 4 ^^^ s.a1 0 = Simd32.xor s.a1 (setEpi32 0 1 (wd (mem.drop i) 5) (wd (mem.drop i) 4)) 0 := BitVec.xor_comm _ _
  have h5 : wd (mem.drop i) 5 ^^^ s.a1 1 = Simd32.xor s.a1 (setEpi32 0 1 (wd (mem.drop i) 5) (wd (mem.drop i) 4)) 1 := BitVec.xor_comm _ _
  rw [half, h4, h5]
  rfl

theorem wd_xor' {a b : Bytes} {p : Nat} (ha : 4 * p + 4 ≤ a.length) (hb : 4 * p + 4 ≤ b.length) :
    wd (Bytes.xor a b) p = wd a p ^^^ wd b p := by
  apply Xoodoo.lane_ext
  intro k hk
  rw [Xoodoo.byteOf_xor, byteOf_wd _ _ _ hk, byteOf_wd _ _ _ hk, byteOf_wd _ _ _ hk, Simd32.getD_xor _ _ _ (by omega) (by omega)]

theorem xor_back (a b : Lane) : a ^^^ (b ^^^ a) = b := by
  rw [BitVec.xor_comm b, ← BitVec.xor_assoc, BitVec.xor_self, BitVec.zero_xor]

theorem B_decrypted (s : Planes) (mem : Bytes) (i o : Nat) (hi : i + 24 ≤ mem.length) (hov : i + 24 ≤ o ∨ o + 24 ≤ i) :
    B (decrypted s mem i o) =
      Bytes.xorAt (Bytes.xorAt (B s) 0 (Bytes.xor ((mem.drop i).take 24) ((B s).take 24))) 24 [1] := by
  have hd : ((mem.drop i).take 24).length = 24 := by rw [List.length_take, List.length_drop]; omega
  have hl : ((B s).take 24).length = 24 := by rw [List.length_take, length_B]; rfl
  generalize hO : Bytes.xor ((mem.drop i).take 24) ((B s).take 24) = O
  have hOl : O.length = 24 := by rw [← hO, Bytes.length_xor, hd, hl]; rfl
  have hw : ∀ p < 6, wd O p = wd (mem.drop i) p ^^^ wd (B s) p := by
    intro p hp
    rw [← hO, wd_xor' (by omega) (by omega), wd_take (by omega), wd_take (by omega)]
  apply words_ext (length_B _) (by simp [length_B])
  intro p hp
  have e := wd_pad (B s) O 6 p (length_B s) hp
  rw [List.take_of_length_le (by omega)] at e
  refine Eq.trans ?_ e.symm
  rw [wd_B _ hp]
  by_cases h6 : p < 6
  · rw [if_pos h6, hw p h6, if_neg (by omega), xor_back, BitVec.ofNat_eq_ofNat, BitVec.xor_zero]
    by_cases h4 : p < 4
    · have : vars2State (decrypted s mem i o) ⟨p, hp⟩ = vars2State s ⟨p, hp⟩ ^^^ (vars2State s ⟨p, hp⟩ ^^^ wd (mem.drop i) p) := by
        interval_cases p <;> rfl
      rw [this, BitVec.xor_comm _ (wd _ _), xor_back]
    · obtain rfl | rfl : p = 4 ∨ p = 5 := by omega
      · exact BitVec.xor_zero.trans (back_other _ _ _ _ _ (by omega) hov)
      · exact BitVec.xor_zero.trans (back_other _ _ _ _ _ (by omega) hov)
  · rw [if_neg h6, wd_B _ hp]
    interval_cases p <;> first | omega | exact congrArg (· ^^^ _) BitVec.xor_zero.symm |
      exact (BitVec.xor_zero.trans BitVec.xor_zero).symm

/-- In place, bytes 16 to 23 of the state are those of the output and not those of the input. -/
theorem B_decrypted_inplace (s : Planes) (mem : Bytes) (i : Nat) (hi : i + 24 ≤ mem.length) :
    B (decrypted s mem i i) = Bytes.setAt (Bytes.xorAt (Bytes.xorAt (B s) 0 (Bytes.xor ((mem.drop i).take 24) ((B s).take 24))) 24 [1]) 16
      ((Bytes.xor ((mem.drop i).take 24) ((B s).take 24)).drop 16) := by
  have hd : ((mem.drop i).take 24).length = 24 := by rw [List.length_take, List.length_drop]; omega
  have hl : ((B s).take 24).length = 24 := by rw [List.length_take, length_B]; rfl
  generalize hO : Bytes.xor ((mem.drop i).take 24) ((B s).take 24) = O
  have hOl : O.length = 24 := by rw [← hO, Bytes.length_xor, hd, hl]; rfl
  have hw : ∀ p < 6, wd O p = wd (mem.drop i) p ^^^ wd (B s) p := by
    intro p hp
    rw [← hO, wd_xor' (by omega) (by omega), wd_take (by omega), wd_take (by omega)]
  apply words_ext (length_B _) (by simp [length_B])
  intro p hp
  have e := wd_pad (B s) O 6 p (length_B s) hp
  rw [List.take_of_length_le (by omega)] at e
  rw [wd_B _ hp]
  have hdr : (O.drop 16).length = 8 := by rw [List.length_drop, hOl]
  by_cases h45 : p = 4 ∨ p = 5
  · have es := wd_same (Bytes.xorAt (Bytes.xorAt (B s) 0 O) 24 [1]) (O.drop 16) 16 (p - 4) (by simp [length_B, hdr]) (by omega)
    have e16 : ∀ b : Bytes, wd (b.drop 16) (p - 4) = wd b p := fun b => by
      have := Simd32.wd_drop b 4 (p - 4)
      rwa [show 4 + (p - 4) = p by omega] at this
    rw [e16, e16, hw p (by omega), wd_B _ hp] at es
    refine Eq.trans ?_ es.symm
    rcases h45 with rfl | rfl
    · exact BitVec.xor_zero.trans (back_same _ _ _ hi).1
    · exact BitVec.xor_zero.trans (back_same _ _ _ hi).2
  · have eo := wd_other (Bytes.xorAt (Bytes.xorAt (B s) 0 O) 24 [1]) (O.drop 16) 16 0 p (by omega)
    rw [List.drop_zero, List.drop_zero] at eo
    refine Eq.trans ?_ (eo.trans e).symm
    by_cases h6 : p < 6
    · rw [if_pos h6, hw p h6, if_neg (by omega), xor_back, BitVec.ofNat_eq_ofNat, BitVec.xor_zero]
      have : vars2State (decrypted s mem i i) ⟨p, hp⟩ = vars2State s ⟨p, hp⟩ ^^^ (vars2State s ⟨p, hp⟩ ^^^ wd (mem.drop i) p) := by
        interval_cases p <;> first | omega | rfl
      rw [this, BitVec.xor_comm _ (wd _ _), xor_back]
    · rw [if_neg h6, wd_B _ hp]
      interval_cases p <;> first | omega | exact congrArg (· ^^^ _) BitVec.xor_zero.symm |
        exact (BitVec.xor_zero.trans BitVec.xor_zero).symm

/-! ### The loops -/

/-- One iteration of the loops of the plain implementation. -/
theorem cryptFull_step {f : Bytes → Bytes} (hf : ∀ s : Bytes, s.length = 48 → (f s).length = 48) (dec : Bool) (fuel : Nat) (s I O : Bytes)
    (IOLen : Nat) (hI : 24 ≤ I.length) (hs : s.length = 48) (hO : Bytes.xor (I.take 24) ((f s).take 24) = O) :
    Xoodyak.cryptFull f dec (fuel + 1) s I IOLen =
      if IOLen - 24 ≥ 24 then
        (Xoodyak.cryptFull f dec fuel (Bytes.xorAt (Bytes.xorAt (f s) 0 (if dec then O else I.take 24)) 24 [1]) (I.drop 24) (IOLen - 24)).bind
          fun st => some (st.1, O ++ st.2.1, st.2.2)
      else some (Bytes.xorAt (Bytes.xorAt (f s) 0 (if dec then O else I.take 24)) 24 [1], O, IOLen - 24) := by
  have hd : (I.take 24).length = 24 := by simp; omega
  have hOe : List.zipWith (· ^^^ ·) (I.take 24) ((f s).take 24) = O := hO
  have hOl : O.length = 24 := by rw [← hO, Bytes.length_xor, hd, List.length_take, hf s hs]; rfl
  have hw : Bytes.setAt (f s) 0 O = Bytes.xorAt (f s) 0 (I.take 24) := by
    have := Xoodyak.setAt_xor (f s) (I.take 24) (by rw [hf s hs]; omega)
    rw [hd, Bytes.slice, List.drop_zero, hO] at this
    exact this
  unfold Xoodyak.cryptFull
  cases dec
  · simp only [Bool.false_eq_true, if_false]
    rw [Xoodyak.encryptLoop, show Xoodyak.Rkout = 24 from rfl, SnP.readBuf_some (by omega)]
    simp only [Option.bind_eq_bind, Option.bind_some]
    rw [Xoodyak.extractAndAdd_some (by rw [hf s hs]; omega), hd, hOe]
    simp only [Option.bind_some]
    rw [SnP.overwriteBytes, if_pos (by rw [hf s hs]; omega), hw]
    simp only [Option.bind_some]
    rw [Xoodyak.addByte_some (by simp [hf s hs]), show (0x01 : Byte) = 1 from rfl]
    simp only [Option.bind_some]
  · simp only [if_true]
    rw [Xoodyak.decryptLoop, show Xoodyak.Rkout = 24 from rfl, SnP.readBuf_some (by omega)]
    simp only [Option.bind_eq_bind, Option.bind_some]
    rw [Xoodyak.extractAndAdd_some (by rw [hf s hs]; omega), hd, hOe]
    simp only [Option.bind_some]
    rw [Xoodyak.addBytes_some (by rw [hf s hs]; omega)]
    simp only [Option.bind_some]
    rw [Xoodyak.addByte_some (by simp [hf s hs]), show (0x01 : Byte) = 1 from rfl]
    simp only [Option.bind_some]

/-- The blocks processed one after the other: `D` is what is needed of the positions for one block, and later blocks of the input are not
overwritten by the output. -/
theorem cryptLoop_ok {f : Bytes → Bytes} (hf : ∀ s : Bytes, s.length = 48 → (f s).length = 48) (isa : Isa)
    (hr : ∀ s, B (rounds12 isa s) = f (B s)) (dec : Bool) (block : Planes → Bytes → Nat → Nat → Option (Planes × Bytes)) (D : Nat → Nat → Prop)
    (hD : ∀ i o, D i o → D (i + 24) (o + 24))
    (hb : ∀ s mem i o, i + 24 ≤ mem.length → o + 24 ≤ mem.length → D i o → ∃ s',
      block s mem i o = some (s', Bytes.setAt mem o (Bytes.xor ((mem.drop i).take 24) ((B s).take 24))) ∧
      B s' = Bytes.xorAt (Bytes.xorAt (B s) 0 (if dec then Bytes.xor ((mem.drop i).take 24) ((B s).take 24) else (mem.drop i).take 24)) 24 [1]) :
    ∀ (fuel : Nat) (s : Planes) (mem I : Bytes) (i o IOLen : Nat), 24 ≤ IOLen → i + IOLen ≤ mem.length → o + IOLen ≤ mem.length →
      IOLen < 2 ^ 64 → IOLen < fuel → D i o → (o ≤ i ∨ i + IOLen ≤ o) → (mem.drop i).take IOLen = I.take IOLen → IOLen ≤ I.length →
      ∃ s' out n, Xoodyak.cryptFull f dec fuel (B s) I IOLen = some (B s', out, n) ∧
        cryptLoop isa block fuel s mem i o IOLen = some (s', Bytes.setAt mem o out, n) ∧ n ≤ IOLen ∧ out.length = IOLen - n := by
  intro fuel
  induction fuel with
  | zero => intro s mem I i o IOLen _ _ _ _ h; omega
  | succ fuel ih =>
    intro s mem I i o IOLen h1 h2 h3 h4 h5 hDio hov hI hIl
    obtain ⟨s1, e1, e2⟩ := hb (rounds12 isa s) mem i o (by omega) (by omega) hDio
    have hd : (mem.drop i).take 24 = I.take 24 := by
      have := congrArg (List.take 24) hI
      rwa [List.take_take, List.take_take, Nat.min_eq_left h1] at this
    rw [hr, hd] at e1 e2
    generalize hO : Bytes.xor (I.take 24) ((f (B s)).take 24) = O at e1 e2
    have hOl : O.length = 24 := by
      rw [← hO, Bytes.length_xor, List.length_take, List.length_take, hf _ (length_B s)]; omega
    rw [cryptFull_step hf dec fuel (B s) I O IOLen (by omega) (length_B s) hO, ← e2, cryptLoop, e1, Option.bind_eq_bind, Option.bind_some, sub64_eq h1 h4]
    by_cases hc : IOLen - 24 ≥ 24
    · have hI' : ((Bytes.setAt mem o O).drop (i + 24)).take (IOLen - 24) = (I.drop 24).take (IOLen - 24) := by
        apply List.ext_getElem?; intro j
        rw [List.getElem?_take, List.getElem?_take]
        by_cases hj : j < IOLen - 24
        · rw [if_pos hj, if_pos hj, List.getElem?_drop, List.getElem?_drop, Bytes.getElem?_setAt]
          have e := congrArg (fun l => l[24 + j]?) hI
          simp only [List.getElem?_take, if_pos (show 24 + j < IOLen by omega), List.getElem?_drop] at e
          rw [← e, ← Nat.add_assoc]
          cases mem[i + 24 + j]? with
          | none => rfl
          | some b => rw [Option.map_some, if_neg (by omega)]
        · rw [if_neg hj, if_neg hj]
      obtain ⟨s', out, n, i1, i2, i3, i4⟩ := ih s1 (Bytes.setAt mem o O) (I.drop 24) (i + 24) (o + 24) (IOLen - 24) hc
        (by rw [Bytes.length_setAt]; omega) (by rw [Bytes.length_setAt]; omega) (by omega) (by omega) (hD _ _ hDio) (by omega) hI'
        (by rw [List.length_drop]; omega)
      rw [if_pos hc, if_pos hc, i1, Option.bind_some]
      refine ⟨s', O ++ out, n, rfl, ?_, by omega, by rw [List.length_append, hOl, i4]; omega⟩
      have := Bytes.setAt_append mem o O out
      rw [hOl] at this
      rw [i2, this]
    · rw [if_neg hc, if_neg hc]
      exact ⟨s1, O, _, rfl, rfl, by omega, by omega⟩

end XoodooPlanes
