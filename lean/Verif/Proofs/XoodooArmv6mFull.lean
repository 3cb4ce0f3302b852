import Verif.Proofs.XoodooArmv6m
import Verif.Proofs.XoodooArmBytes

/-!
The functions for Xoodyak and Xoofff of the ARMv6-M assembly do what those of `XoodooArm` do.
-/

namespace XoodooArm6

open Xoodoo (Lane Lanes bytesOfLanes bytesOfWord byteOf wordOfBytes)
open Simd32 (wd loadWord storeWord)
open XoodooArm (Regs stm reg stm_reg ldrb strb ldrb_ok sub32 add32 eorImm stm_eorImm written written_nil load_written store_written ror_eq
  rol_zero)
open XoodooPlanes (loadWord_ok storeWord_eq)

/-! ### Alignment -/

theorem unaligned_eq (a : Lane) : unaligned a = decide (a.toNat % 4 ≠ 0) := by
  have h : a <<< 30 = 0 ↔ a.toNat % 4 = 0 := by
    rw [← BitVec.toNat_inj, BitVec.toNat_shiftLeft, Nat.shiftLeft_eq]
    show a.toNat * 2 ^ 30 % 2 ^ 32 = 0 ↔ _
    omega
  unfold unaligned
  by_cases hc : a.toNat % 4 = 0
  · simp [h.2 hc, hc]
  · have hn : ¬ a <<< 30 = 0 := fun e => hc (h.1 e)
    rw [decide_eq_true hc]
    exact bne_iff_ne.2 hn

theorem unaligned_addr (ad p : Nat) : unaligned (addr ad p) = decide ((ad + p) % 4 ≠ 0) := by
  rw [unaligned_eq, addr, BitVec.toNat_ofNat, Nat.mod_mod_of_dvd _ (by decide)]

theorem unaligned_or (a b : Lane) : unaligned (a ||| b) = (unaligned a || unaligned b) := by
  have h : ∀ x y : Fin 4, (decide ((x.val ||| y.val) ≠ 0)) = (decide (x.val ≠ 0) || decide (y.val ≠ 0)) := by decide
  rw [unaligned_eq, unaligned_eq, unaligned_eq, BitVec.toNat_or, show (4 : Nat) = 2 ^ 2 from rfl, Nat.or_mod_two_pow]
  exact h ⟨a.toNat % 4, Nat.mod_lt _ (by decide)⟩ ⟨b.toNat % 4, Nat.mod_lt _ (by decide)⟩

theorem unaligned_and (a b : Lane) : unaligned (a &&& b) = decide ((a.toNat % 4) &&& (b.toNat % 4) ≠ 0) := by
  rw [unaligned_eq, BitVec.toNat_and, show (4 : Nat) = 2 ^ 2 from rfl, Nat.and_mod_two_pow]

theorem ldw_eq {ad p : Nat} (h : (ad + p) % 4 = 0) (b : Bytes) : ldw ad b p = loadWord b p := if_pos h

theorem stw_eq {ad p : Nat} (h : (ad + p) % 4 = 0) (b : Bytes) (w : Lane) : stw ad b p w = storeWord b p w := if_pos h

/-! ### Words from bytes -/

theorem loadWord_none (b : Bytes) (p : Nat) (h : ¬ p + 4 ≤ b.length) : loadWord b p = none := by
  rw [loadWord, SnP.readBuf, if_neg (by rw [List.length_drop]; omega)]
  rfl

theorem loadWord_bytes (b : Bytes) (p : Nat) (h : p + 4 ≤ b.length) : loadWord b p =
    some ((b.getD p 0).setWidth 32 ||| (b.getD (p + 1) 0).setWidth 32 <<< 8 ||| (b.getD (p + 2) 0).setWidth 32 <<< 16 |||
      (b.getD (p + 3) 0).setWidth 32 <<< 24) := by
  have e : ∀ j, (b.drop p).getD j 0 = b.getD (p + j) 0 := fun j => by
    rw [List.getD_eq_getElem?_getD, List.getElem?_drop, List.getD_eq_getElem?_getD]
  rw [show p = p + 4 * 0 from rfl, loadWord_ok b p 0 (by omega), wd, wordOfBytes]
  simp only [KeccakP1600.loopFrom, Nat.mul_zero, List.drop_zero, e, Nat.mul_one, Nat.add_zero, Nat.zero_add, Nat.reduceAdd, Nat.reduceMul]
  simp

theorem ldrb_none (b : Bytes) (p : Nat) (h : ¬ p < b.length) : ldrb b p = none := List.getElem?_eq_none (by omega)

theorem mLoadU_eq (b : Bytes) (p : Nat) : mLoadU b p = loadWord b p := by
  unfold mLoadU
  by_cases h : p + 4 ≤ b.length
  · rw [loadWord_bytes b p h, ldrb_ok _ _ (by omega), ldrb_ok _ _ (by omega), ldrb_ok _ _ (by omega), ldrb_ok _ _ (by omega)]
    rfl
  · rw [loadWord_none b p h, ldrb_none b (p + 3) (by omega)]
    cases ldrb b (p + 0) <;> cases ldrb b (p + 1) <;> cases ldrb b (p + 2) <;> rfl

theorem shl_or (a b c d : Lane) : (((d <<< 8 ||| c) <<< 8 ||| b) <<< 8 ||| a) = a ||| b <<< 8 ||| c <<< 16 ||| d <<< 24 := by
  have h8 : ∀ x : Lane, x <<< 8 <<< 8 = x <<< 16 := fun x => (BitVec.shiftLeft_add x 8 8).symm
  have h16 : ∀ x : Lane, x <<< 16 <<< 8 = x <<< 24 := fun x => (BitVec.shiftLeft_add x 16 8).symm
  rw [BitVec.shiftLeft_or_distrib, BitVec.shiftLeft_or_distrib, BitVec.shiftLeft_or_distrib, h8 c, h8 d, h16]
  generalize b <<< 8 = b', c <<< 16 = c', d <<< 24 = d'
  rw [BitVec.or_comm, BitVec.or_comm d' c', BitVec.or_comm (c' ||| d') b', BitVec.or_assoc, BitVec.or_assoc]

theorem mLdu_eq (b : Bytes) (p : Nat) : mLdu b p = loadWord b p := by
  unfold mLdu
  by_cases h : p + 4 ≤ b.length
  · rw [loadWord_bytes b p h, ldrb_ok _ _ (by omega), ldrb_ok _ _ (by omega), ldrb_ok _ _ (by omega), ldrb_ok _ _ (by omega), ← shl_or]
    rfl
  · rw [loadWord_none b p h, ldrb_none b (p + 3) (by omega)]
    rfl

theorem strb_ok (b : Bytes) (p : Nat) (v : Byte) (h : p < b.length) : strb b p v = some (Bytes.setAt b p [v]) := X86.wr8_ok .mov b p v h

theorem mStu_eq (b : Bytes) (p : Nat) (w : Lane) : mStu b p w = storeWord b p w := by
  unfold mStu
  by_cases h : p + 4 ≤ b.length
  · have e : bytesOfWord w = [w.setWidth 8] ++ ([(w >>> 8).setWidth 8] ++ ([(w >>> 8 >>> 8).setWidth 8] ++ [(w >>> 8 >>> 8 >>> 8).setWidth 8])) := by
      rw [XoodooArm.bytesOfWord_map]
      have hb : ∀ k, (w >>> (8 * k)).setWidth 8 = byteOf w k := fun k => rfl
      rw [← BitVec.shiftRight_add, ← BitVec.shiftRight_add]
      have h0 := hb 0
      rw [Nat.mul_zero, BitVec.ushiftRight_zero] at h0
      rw [h0, show w >>> 8 = w >>> (8 * 1) from rfl, hb 1, show w >>> (8 + 8) = w >>> (8 * 2) from rfl, hb 2,
        show w >>> (8 + 8 + 8) = w >>> (8 * 3) from rfl, hb 3]
      rfl
    rw [storeWord_eq _ _ _ h, e, ← Bytes.setAt_append, ← Bytes.setAt_append, ← Bytes.setAt_append]
    rw [strb_ok _ _ _ (by omega)]
    simp only [Option.bind_eq_bind, Option.bind_some]
    rw [strb_ok _ _ _ (by rw [Bytes.length_setAt]; omega)]
    simp only [Option.bind_some]
    rw [strb_ok _ _ _ (by rw [Bytes.length_setAt, Bytes.length_setAt]; omega)]
    simp only [Option.bind_some]
    rw [strb_ok _ _ _ (by rw [Bytes.length_setAt, Bytes.length_setAt, Bytes.length_setAt]; omega)]
    rfl
  · rw [storeWord, SnP.overwriteBytes, if_neg (by rw [Xoodoo.length_bytesOfWord]; omega)]
    unfold strb
    by_cases h0 : p + 0 < b.length
    · rw [if_pos h0]
      simp only [Option.bind_eq_bind, Option.bind_some, List.length_set]
      by_cases h1 : p + 1 < b.length
      · rw [if_pos h1]
        simp only [Option.bind_some, List.length_set]
        by_cases h2 : p + 2 < b.length
        · rw [if_pos h2]
          simp only [Option.bind_some, List.length_set]
          rw [if_neg (by omega)]
        · rw [if_neg h2]
          rfl
      · rw [if_neg h1]
        rfl
    · rw [if_neg h0]
      rfl

/-! ### The same lanes in both machines -/

/-- Both fail, or both end with the same lanes. -/
inductive R {α : Type} : Option (M × α) → Option (Regs × α) → Prop
  | none : R none none
  | some (m : M) (g : Regs) (a : α) (h : store m = stm g) : R (some (m, a)) (some (g, a))

theorem R.bind {α β : Type} {x : Option (M × α)} {y : Option (Regs × α)} {f : M × α → Option (M × β)} {f' : Regs × α → Option (Regs × β)}
    (h : R x y) (hf : ∀ m g a, store m = stm g → R (f (m, a)) (f' (g, a))) : R (x.bind f) (y.bind f') := by
  cases h with
  | none => exact R.none
  | some m g a e => exact hf m g a e

theorem R.out {α β : Type} {x : Option (M × α)} {y : Option (Regs × α)} (h : R x y) (F : Lanes → α → β) :
    (x.bind fun s => Option.some (F (store s.1) s.2)) = y.bind fun s => Option.some (F (stm s.1) s.2) := by
  cases h with
  | none => rfl
  | some m g a e => rw [Option.bind_some, Option.bind_some, e]

/-- Where a lane is. -/
def loc : Fin 12 → Loc
  | 0 => .L 3 | 1 => .H 8 | 2 => .H 9 | 3 => .mem | 4 => .H 10 | 5 => .H 11 | 6 => .H 12 | 7 => .H 14 | 8 => .L 4 | 9 => .L 5
  | 10 => .L 6 | 11 => .L 7

theorem get_loc (m : M) (i : Fin 12) : get m (loc i) = store m i := by
  fin_cases i <;> rfl

theorem store_mXor (j : Fin 12) (w : Lane) (m : M) (i : Fin 12) :
    store (mXor (loc j) 1 2 (m.set 1 w)) i = store m i ^^^ (if i = j then w else 0) := by
  have z : ∀ x : Lane, x = x ^^^ 0 := fun x => BitVec.xor_zero.symm
  fin_cases j <;> fin_cases i <;> first | rfl | exact z _

theorem stm_eor1 (j : Fin 12) (w : Lane) (g : Regs) (i : Fin 12) :
    stm (XoodooArm.eor (reg j) (reg j) 1 0 (XoodooArm.set g 1 w)) i = stm g i ^^^ (if i = j then w else 0) := by
  have r0 : ∀ x : Lane, x.rotateRight 0 = x := fun x => by rw [ror_eq x 0 (by omega)]; exact rol_zero x
  have h2 : ∀ i, reg i ≠ 1 := fun i => by have := XoodooArm.two_le_reg i; omega
  rw [stm_reg, stm_reg, XoodooArm.eor, XoodooArm.get_set, XoodooArm.get_set, XoodooArm.get_set, XoodooArm.get_set, if_neg (h2 j), if_pos rfl, if_neg (h2 i), r0]
  by_cases h : i = j
  · rw [h, if_pos rfl, if_pos rfl]
  · rw [if_neg (fun e => h ((XoodooArm.reg_inj i j).1 e)), if_neg h]
    exact BitVec.xor_zero.symm

theorem eorIn_R (input : Bytes) : ∀ (is : List (Fin 12)) (m : M) (g : Regs) (p : Nat), store m = stm g →
    R (eorIn (loadWord input) (is.map loc) m p) (XoodooArm.eorIn input (is.map reg) g p) := by
  intro is
  induction is with
  | nil => intro m g p h; exact R.some m g p h
  | cons i is ih =>
    intro m g p h
    rw [List.map_cons, List.map_cons, eorIn, XoodooArm.eorIn]
    cases loadWord input p with
    | none => exact R.none
    | some w =>
      refine ih _ _ (p + 4) ?_
      funext j
      rw [store_mXor, stm_eor1, h]

theorem eorIn_aligned (ad : Nat) (input : Bytes) : ∀ (ls : List Loc) (m : M) (p : Nat), (ad + p) % 4 = 0 →
    eorIn (ldw ad input) ls m p = eorIn (loadWord input) ls m p := by
  intro ls
  induction ls with
  | nil => intro m p _; rfl
  | cons l ls ih =>
    intro m p h
    rw [eorIn, eorIn, ldw_eq h]
    cases loadWord input p with
    | none => rfl
    | some w => exact ih _ _ (by omega)

theorem eorIn_pointer (read : Nat → Option Lane) : ∀ (ls : List Loc) (m : M) (p : Nat) (s : M × Nat),
    eorIn read ls m p = some s → s.2 = p + 4 * ls.length := by
  intro ls
  induction ls with
  | nil =>
    intro m p s h
    rw [eorIn, Option.some.injEq] at h
    rw [← h]
    rfl
  | cons l ls ih =>
    intro m p s h
    rw [eorIn] at h
    cases e : read p with
    | none => rw [e] at h; exact absurd h (by simp)
    | some w =>
      rw [e] at h
      rw [ih _ _ _ h, List.length_cons]
      omega

theorem eorIn_append (read : Nat → Option Lane) : ∀ (ls ls' : List Loc) (m : M) (p : Nat),
    eorIn read (ls ++ ls') m p = (eorIn read ls m p).bind fun s => eorIn read ls' s.1 s.2 := by
  intro ls
  induction ls with
  | nil => intro ls' m p; rfl
  | cons l ls ih =>
    intro ls' m p
    rw [List.cons_append, eorIn, eorIn]
    cases read p with
    | none => rfl
    | some w => exact ih ls' _ _

theorem eorIn62_append (input : Bytes) : ∀ (rs rs' : List Nat) (g : Regs) (p : Nat),
    XoodooArm.eorIn input (rs ++ rs') g p = (XoodooArm.eorIn input rs g p).bind fun s => XoodooArm.eorIn input rs' s.1 s.2 := by
  intro rs
  induction rs with
  | nil => intro rs' g p; rfl
  | cons r rs ih =>
    intro rs' g p
    rw [List.cons_append, XoodooArm.eorIn, XoodooArm.eorIn]
    cases loadWord input p with
    | none => rfl
    | some w => exact ih rs' _ _

/-- Lanes with the offsets of successive words. -/
def offs : Nat → List Loc → List (Nat × Loc)
  | _, [] => []
  | o, l :: ls => (o, l) :: offs (o + 4) ls

theorem eorAt_eq (b : Bytes) (p : Nat) : ∀ (ls : List Loc) (o : Nat) (m : M),
    eorAt b p (offs o ls) m = (eorIn (loadWord b) ls m (p + o)).map Prod.fst := by
  intro ls
  induction ls with
  | nil => intro o m; rfl
  | cons l ls ih =>
    intro o m
    rw [offs, eorAt, eorIn, mLoadU_eq]
    cases loadWord b (p + o) with
    | none => rfl
    | some w => exact ih _ _

/-! ### Absorbing -/

theorem permute_R (m : M) (g : Regs) (h : store m = stm g) :
    ∃ m', permute12Asm m = some m' ∧ store m' = stm (XoodooArm.permute12Asm g) := by
  obtain ⟨m', e1, e2⟩ := permute12Asm_eq m
  exact ⟨m', e1, by rw [e2, h, XoodooArm.permute12Asm_eq]⟩

theorem keyedBlock_eq (ad : Nat) (X : Bytes) (m : M) (p : Nat) : absorbKeyedBlock ad X m p =
    (eorIn (loadWord X) ([0, 1, 2, 3, 4, 5, 6, 7, 8, 9, 10].map loc) m p).bind fun s => some (eors 7 2 (movs 2 1 s.1), s.2) := by
  rw [absorbKeyedBlock, unaligned_addr]
  by_cases h : (ad + p) % 4 = 0
  · rw [if_neg (by simp [h]), eorIn_aligned _ _ _ _ _ h]
    rfl
  · rw [if_pos (by simp [h]), show [(0, Loc.L 3), (4, .H 8), (8, .H 9), (12, .mem), (16, .H 10), (20, .H 11), (24, .H 12), (28, .H 14)] =
      offs 0 ([0, 1, 2, 3, 4, 5, 6, 7].map loc) from rfl, show [(0, Loc.L 4), (4, .L 5), (8, .L 6)] = offs 0 ([8, 9, 10].map loc) from rfl,
      show ([0, 1, 2, 3, 4, 5, 6, 7, 8, 9, 10] : List (Fin 12)).map loc = [0, 1, 2, 3, 4, 5, 6, 7].map loc ++ [8, 9, 10].map loc from rfl,
      eorIn_append, eorAt_eq]
    cases e : eorIn (loadWord X) ([0, 1, 2, 3, 4, 5, 6, 7].map loc) m (p + 0) with
    | none => rfl
    | some s =>
      have hp := eorIn_pointer _ _ _ _ _ e
      simp only [Option.map_some, Option.bind_eq_bind, Option.bind_some, eorAt_eq, hp, List.length_map, List.length_cons, List.length_nil,
        Nat.add_zero, Nat.zero_add, Nat.reduceAdd, Nat.reduceMul]
      cases e2 : eorIn (loadWord X) ([8, 9, 10].map loc) s.1 (p + 32) with
      | none => rfl
      | some t =>
        have hq := eorIn_pointer _ _ _ _ _ e2
        simp only [Option.map_some, Option.bind_some, hq, List.length_map, List.length_cons, List.length_nil]

theorem hashBlock_eq (ad : Nat) (X : Bytes) (m : M) (p : Nat) : absorbHashBlock ad X m p =
    (eorIn (loadWord X) ([0, 1, 2, 3].map loc) m p).bind fun s => some (mov 10 1 (eors 1 2 (mov 1 10 (movs 2 1 s.1))), s.2) := by
  rw [absorbHashBlock, unaligned_addr]
  by_cases h : (ad + p) % 4 = 0
  · rw [if_neg (by simp [h]), eorIn_aligned _ _ _ _ _ h]
    rfl
  · rw [if_pos (by simp [h]), show [(0, Loc.L 3), (4, .H 8), (8, .H 9), (12, .mem)] = offs 0 ([0, 1, 2, 3].map loc) from rfl, eorAt_eq]
    cases e : eorIn (loadWord X) ([0, 1, 2, 3].map loc) m (p + 0) with
    | none => rfl
    | some s =>
      have hp := eorIn_pointer _ _ _ _ _ e
      simp only [Option.map_some, Option.bind_eq_bind, Option.bind_some, hp, List.length_map, List.length_cons, List.length_nil]

theorem store_pad11 (m : M) (g : Regs) (h : store m = stm g) : store (eors 7 2 (movs 2 1 m)) = stm (eorImm 14 14 1 g) := by
  funext i
  rw [show stm (eorImm 14 14 1 g) i = stm g i ^^^ (if i = 11 then 1 else 0) from stm_eorImm 11 1 g i, ← h]
  have z : ∀ x : Lane, x = x ^^^ 0 := fun x => BitVec.xor_zero.symm
  fin_cases i <;> first | rfl | exact z _

theorem store_pad4 (m : M) (g : Regs) (h : store m = stm g) :
    store (mov 10 1 (eors 1 2 (mov 1 10 (movs 2 1 m)))) = stm (eorImm 6 6 1 g) := by
  funext i
  rw [show stm (eorImm 6 6 1 g) i = stm g i ^^^ (if i = 4 then 1 else 0) from stm_eorImm 4 1 g i, ← h]
  have z : ∀ x : Lane, x = x ^^^ 0 := fun x => BitVec.xor_zero.symm
  fin_cases i <;> first | rfl | exact z _

theorem store_pad6 (m : M) (g : Regs) (h : store m = stm g) :
    store (mov 12 1 (eors 1 0 (mov 1 12 (movs 0 1 m)))) = stm (eorImm 8 8 1 g) := by
  funext i
  rw [show stm (eorImm 8 8 1 g) i = stm g i ^^^ (if i = 6 then 1 else 0) from stm_eorImm 6 1 g i, ← h]
  have z : ∀ x : Lane, x = x ^^^ 0 := fun x => BitVec.xor_zero.symm
  fin_cases i <;> first | rfl | exact z _

theorem store_pad0 (m : M) (g : Regs) (h : store m = stm g) : store (eors 3 0 (movs 0 1 m)) = stm (eorImm 2 2 1 g) := by
  funext i
  rw [show stm (eorImm 2 2 1 g) i = stm g i ^^^ (if i = 0 then 1 else 0) from stm_eorImm 0 1 g i, ← h]
  have z : ∀ x : Lane, x = x ^^^ 0 := fun x => BitVec.xor_zero.symm
  fin_cases i <;> first | rfl | exact z _

theorem absorbLoop_R (X : Bytes) (block : M → Nat → Option (M × Nat)) (rs : List Nat) (pad rate : Nat)
    (hb : ∀ m g p, store m = stm g → R (block m p) ((XoodooArm.eorIn X rs g p).bind fun s => some (eorImm pad pad 1 s.1, s.2))) :
    ∀ (fuel : Nat) (m : M) (g : Regs) (p n : Nat), store m = stm g →
      R (absorbLoop block rate fuel m p n) (XoodooArm.absorbLoop X rs pad rate fuel g p n) := by
  intro fuel
  induction fuel with
  | zero => intro m g p n _; exact R.none
  | succ fuel ih =>
    intro m g p n h
    obtain ⟨m1, e1, h1⟩ := permute_R m g h
    have hb := hb m1 _ p h1
    rw [absorbLoop, XoodooArm.absorbLoop, e1, Option.bind_eq_bind, Option.bind_some]
    cases e : XoodooArm.eorIn X rs (XoodooArm.permute12Asm g) p with
    | none =>
      rw [e] at hb
      generalize block m1 p = b at hb
      cases hb
      exact R.none
    | some s =>
      rw [e, Option.bind_some] at hb
      generalize block m1 p = b at hb
      cases hb with
      | some m2 _ _ h2 =>
        simp only [Option.bind_eq_bind, Option.bind_some]
        by_cases hc : n < rate
        · rw [if_pos hc, if_pos hc]
          exact R.some _ _ _ h2
        · rw [if_neg hc, if_neg hc]
          exact ih _ _ _ _ h2

theorem absorbKeyed_eq (m : M) (g : Regs) (ad : Nat) (A : Lanes) (X : Bytes) (XLen : Nat) :
    absorbKeyedFullBlocks m ad A X XLen = XoodooArm.absorbKeyedFullBlocks g A X XLen := by
  have h := absorbLoop_R X (absorbKeyedBlock ad X) [2, 3, 4, 5, 6, 7, 8, 9, 10, 11, 12] 14 44 (fun m g p h => by
    rw [keyedBlock_eq]
    exact (eorIn_R X [0, 1, 2, 3, 4, 5, 6, 7, 8, 9, 10] m g p h).bind fun m g a h => R.some _ _ _ (store_pad11 m g h)) (2 ^ 32) (load A m)
    (XoodooArm.ldm g A) 0 (sub32 XLen 44) (by rw [store_load, XoodooArm.stm_ldm])
  exact h.out fun A n => (A, sub32 XLen (add32 n 44))

theorem absorbHash_eq (m : M) (g : Regs) (ad : Nat) (A : Lanes) (X : Bytes) (XLen : Nat) :
    absorbHashFullBlocks m ad A X XLen = XoodooArm.absorbHashFullBlocks g A X XLen := by
  have h := absorbLoop_R X (absorbHashBlock ad X) [2, 3, 4, 5] 6 16 (fun m g p h => by
    rw [hashBlock_eq]
    exact (eorIn_R X [0, 1, 2, 3] m g p h).bind fun m g a h => R.some _ _ _ (store_pad4 m g h)) (2 ^ 32) (load A m)
    (XoodooArm.ldm g A) 0 (sub32 XLen 16) (by rw [store_load, XoodooArm.stm_ldm])
  exact h.out fun A n => (A, sub32 XLen (add32 n 16))

/-! ### Squeezing -/

theorem strWords_store (write : Bytes → Nat → Lane → Option Bytes) : ∀ (ws : List Lane) (out : Bytes) (p : Nat),
    (∀ b k w, write b (p + 4 * k) w = storeWord b (p + 4 * k) w) → strWords write ws out p = XoodooArm.strWords ws out p := by
  intro ws
  induction ws with
  | nil => intro out p _; rfl
  | cons w ws ih =>
    intro out p h
    rw [strWords, XoodooArm.strWords, show write out p w = storeWord out p w from h out 0 w]
    cases storeWord out p w with
    | none => rfl
    | some b => exact ih _ _ fun b k w => by have := h b (k + 1) w; rwa [show p + 4 * (k + 1) = p + 4 + 4 * k by omega] at this

theorem strWords_eq (ad : Nat) (ws : List Lane) (out : Bytes) (p : Nat) :
    strWords (if unaligned (addr ad p) then mStu else stw ad) ws out p = XoodooArm.strWords ws out p := by
  rw [unaligned_addr]
  by_cases h : (ad + p) % 4 = 0
  · rw [if_neg (by simp [h])]
    exact strWords_store _ _ _ _ fun b k w => stw_eq (by omega) b w
  · rw [if_pos (by simp [h])]
    exact strWords_store _ _ _ _ fun b k w => mStu_eq b _ w

theorem squeezeLoop_R (ad : Nat) (is : List (Fin 12)) (rate : Nat) : ∀ (fuel : Nat) (m : M) (g : Regs) (Y : Bytes) (p n : Nat), store m = stm g →
    R (squeezeLoop ad (is.map loc) rate fuel m Y p n) (XoodooArm.squeezeLoop (is.map reg) rate fuel g Y p n) := by
  intro fuel
  induction fuel with
  | zero => intro m g Y p n _; exact R.none
  | succ fuel ih =>
    intro m g Y p n h
    obtain ⟨m1, e1, h1⟩ := permute_R _ _ (store_pad0 m g h)
    have hw : (is.map loc).map (get m1) = (is.map reg).map (XoodooArm.permute12Asm (eorImm 2 2 1 g)) := by
      rw [List.map_map, List.map_map]
      apply List.map_congr_left
      intro i _
      show get m1 (loc i) = _
      rw [get_loc, h1, stm_reg]
      rfl
    rw [squeezeLoop, XoodooArm.squeezeLoop, e1, Option.bind_eq_bind, Option.bind_some, strWords_eq, hw]
    cases XoodooArm.strWords ((is.map reg).map (XoodooArm.permute12Asm (eorImm 2 2 1 g))) Y p with
    | none => exact R.none
    | some s =>
      simp only [Option.bind_eq_bind, Option.bind_some]
      by_cases hc : n < rate
      · rw [if_pos hc, if_pos hc]
        exact R.some _ _ _ h1
      · rw [if_neg hc, if_neg hc]
        exact ih _ _ _ _ _ h1

theorem squeezeKeyed_eq (m : M) (g : Regs) (ad : Nat) (A : Lanes) (Y : Bytes) (YLen : Nat) :
    squeezeKeyedFullBlocks m ad A Y YLen = XoodooArm.squeezeKeyedFullBlocks g A Y YLen := by
  have h := squeezeLoop_R ad [0, 1, 2, 3, 4, 5] 24 (2 ^ 32) (load A m) (XoodooArm.ldm g A) Y 0 (sub32 YLen 24)
    (by rw [store_load, XoodooArm.stm_ldm])
  exact h.out fun A s => (A, s.1, sub32 YLen (add32 s.2 24))

theorem squeezeHash_eq (m : M) (g : Regs) (ad : Nat) (A : Lanes) (Y : Bytes) (YLen : Nat) :
    squeezeHashFullBlocks m ad A Y YLen = XoodooArm.squeezeHashFullBlocks g A Y YLen := by
  have h := squeezeLoop_R ad [0, 1, 2, 3] 16 (2 ^ 32) (load A m) (XoodooArm.ldm g A) Y 0 (sub32 YLen 16)
    (by rw [store_load, XoodooArm.stm_ldm])
  exact h.out fun A s => (A, s.1, sub32 YLen (add32 s.2 16))

/-! ### Xoofff -/

theorem eorPair_R (ad : Nat) (input : Bytes) (i j : Fin 12) (d e : Nat) (hd : (i, j, d, e) = (8, 9, 4, 5) ∨ (i, j, d, e) = (10, 11, 6, 7))
    (m : M) (g : Regs) (p : Nat) (hp : (ad + p) % 4 = 0) (h : store m = stm g) :
    R (eorPair (ldw ad input) d e m p) (XoodooArm.eorIn input [reg i, reg j] g p) := by
  rw [eorPair, ldw_eq hp, ldw_eq (by omega), XoodooArm.eorIn]
  cases loadWord input p with
  | none => exact R.none
  | some w =>
    simp only [Option.bind_eq_bind, Option.bind_some, XoodooArm.eorIn]
    cases loadWord input (p + 4) with
    | none => exact R.none
    | some v =>
      refine R.some _ _ _ ?_
      funext k
      rw [stm_eor1, stm_eor1, ← h]
      have z : ∀ x : Lane, x = x ^^^ 0 := fun x => BitVec.xor_zero.symm
      have z2 : ∀ x : Lane, x = x ^^^ 0 ^^^ 0 := fun x => by rw [← z, ← z]
      have z3 : ∀ x y : Lane, x ^^^ y = x ^^^ 0 ^^^ y := fun x y => by rw [← z]
      have z4 : ∀ x y : Lane, x ^^^ y = x ^^^ y ^^^ 0 := fun x y => by rw [← z]
      rcases hd with hd | hd <;>
      · simp only [Prod.mk.injEq] at hd
        obtain ⟨rfl, rfl, rfl, rfl⟩ := hd
        fin_cases k <;> first | exact z2 _ | exact z3 _ _ | exact z4 _ _

theorem addInput_R (ad : Nat) (input : Bytes) (m : M) (g : Regs) (p : Nat) (h : store m = stm g) :
    R (addInput ad input m p) (XoodooArm.eorIn input [2, 3, 4, 5, 6, 7, 8, 9, 10, 11, 12, 14] g p) := by
  rw [addInput, unaligned_addr]
  by_cases hp : (ad + p) % 4 = 0
  · rw [if_neg (by simp [hp]), eorIn_aligned _ _ _ _ _ hp,
      show [2, 3, 4, 5, 6, 7, 8, 9, 10, 11, 12, 14] = [0, 1, 2, 3, 4, 5, 6, 7].map reg ++ ([reg 8, reg 9] ++ [reg 10, reg 11]) from rfl,
      eorIn62_append, show [Loc.L 3, .H 8, .H 9, .mem, .H 10, .H 11, .H 12, .H 14] = [0, 1, 2, 3, 4, 5, 6, 7].map loc from rfl]
    have h1 := eorIn_R input [0, 1, 2, 3, 4, 5, 6, 7] m g p h
    cases e : eorIn (loadWord input) ([0, 1, 2, 3, 4, 5, 6, 7].map loc) m p with
    | none =>
      rw [e] at h1
      generalize XoodooArm.eorIn input ([0, 1, 2, 3, 4, 5, 6, 7].map reg) g p = y at h1
      cases h1
      exact R.none
    | some s =>
      have hq := eorIn_pointer _ _ _ _ _ e
      rw [List.length_map, List.length_cons, List.length_cons, List.length_cons, List.length_cons, List.length_cons, List.length_cons,
        List.length_cons, List.length_cons, List.length_nil] at hq
      rw [e] at h1
      obtain ⟨m1, q⟩ := s
      dsimp only at hq
      generalize XoodooArm.eorIn input ([0, 1, 2, 3, 4, 5, 6, 7].map reg) g p = y at h1
      cases h1 with
      | some _ g1 _ h1 =>
        simp only [Option.bind_eq_bind, Option.bind_some]
        rw [eorIn62_append]
        have h2 := eorPair_R ad input 8 9 4 5 (Or.inl rfl) m1 g1 q (by omega) h1
        cases e2 : eorPair (ldw ad input) 4 5 m1 q with
        | none =>
          rw [e2] at h2
          generalize XoodooArm.eorIn input [reg 8, reg 9] g1 q = y at h2
          cases h2
          exact R.none
        | some t =>
          have ht : t.2 = q + 8 := by
            rw [eorPair] at e2
            cases ea : ldw ad input q with
            | none => rw [ea] at e2; exact absurd e2 (by simp)
            | some a =>
              cases eb : ldw ad input (q + 4) with
              | none => rw [ea, eb] at e2; exact absurd e2 (by simp)
              | some b =>
                rw [ea, eb] at e2
                have := Option.some.inj e2
                rw [← this]
          rw [e2] at h2
          obtain ⟨m2, q2⟩ := t
          dsimp only at ht
          generalize XoodooArm.eorIn input [reg 8, reg 9] g1 q = y at h2
          cases h2 with
          | some _ g2 _ h2 =>
            exact eorPair_R ad input 10 11 6 7 (Or.inr rfl) m2 g2 q2 (by omega) h2
  · have e : mLdu input = loadWord input := funext fun p => mLdu_eq input p
    rw [if_pos (by simp [hp]), e]
    exact eorIn_R input [0, 1, 2, 3, 4, 5, 6, 7, 8, 9, 10, 11] m g p h

theorem accumulate_eq (m : M) (x : Lanes) (i : Fin 12) : accumulate m x i = x i ^^^ store m i := by
  fin_cases i <;> rfl

theorem addKey_eq (m : M) (k : Lanes) : addKey m k = [k 0 ^^^ store m 0, k 1 ^^^ store m 1, k 2 ^^^ store m 2, k 3 ^^^ store m 3,
    k 4 ^^^ store m 4, k 5 ^^^ store m 5, k 6 ^^^ store m 6, k 7 ^^^ store m 7, k 8 ^^^ store m 8, k 9 ^^^ store m 9, k 10 ^^^ store m 10,
    k 11 ^^^ store m 11] := rfl

set_option maxRecDepth 20000 in
theorem rollc_eq (m : M) (g : Regs) (k : Lanes) : store (rollc k m) = stm (XoodooArm.rollc g k) := by
  have h1 : store (rollc k m) = XoodooArm.mk (k 4) (k 5) (k 6) (k 7) (k 8) (k 9) (k 10) (k 11) (k 1) (k 2) (k 3)
      ((k 0 ^^^ k 0 <<< 13) ^^^ (k 4).rotateRight ((32 - 3 : Lane).toNat % 256)) := by
    funext i
    fin_cases i <;> rfl
  have h2 : stm (XoodooArm.rollc g k) = XoodooArm.mk (k 4) (k 5) (k 6) (k 7) (k 8) (k 9) (k 10) (k 11) (k 1) (k 2) (k 3)
      ((k 0 ^^^ k 0 <<< 13) ^^^ (k 4).rotateRight (32 - 3)) := by
    funext i
    fin_cases i <;> rfl
  rw [h1, h2, show (32 - 3 : Lane).toNat % 256 = 32 - 3 by decide]

set_option maxRecDepth 20000 in
theorem rolle_eq (m : M) (g : Regs) (y : Lanes) : store (rolle y m) = stm (XoodooArm.rolle g y) := by
  have h1 : store (rolle y m) = XoodooArm.mk (y 4) (y 5) (y 6) (y 7) (y 8) (y 9) (y 10) (y 11) (y 1) (y 2) (y 3)
      ((y 0).rotateRight ((32 - 5 : Lane).toNat % 256) ^^^ (y 8 &&& y 4) ^^^ (y 4).rotateRight ((32 - 13 : Lane).toNat % 256) ^^^ 7) := by
    funext i
    fin_cases i <;> rfl
  have h2 : stm (XoodooArm.rolle g y) = XoodooArm.mk (y 4) (y 5) (y 6) (y 7) (y 8) (y 9) (y 10) (y 11) (y 1) (y 2) (y 3)
      ((y 8 &&& y 4) ^^^ (y 0).rotateRight (32 - 5) ^^^ (y 4).rotateRight (32 - 13) ^^^ 7) := by
    funext i
    fin_cases i <;> rfl
  rw [h1, h2, show (32 - 5 : Lane).toNat % 256 = 32 - 5 by decide, show (32 - 13 : Lane).toNat % 256 = 32 - 13 by decide,
    BitVec.xor_comm (y 8 &&& y 4)]

theorem rounds_R (m : M) (g : Regs) (h : store m = stm g) : ∃ m', roundsLoop RC6 (2 ^ 32) { m with rc := 0 } = some m' ∧
    store m' = XoodooArm.V (XoodooArm.roundsX g) := by
  obtain ⟨m', e1, e2⟩ := rounds6_eq { m with rc := 0 } rfl (2 ^ 32) (by decide)
  refine ⟨m', e1, ?_⟩
  rw [e2, XoodooArm.V, XoodooArm.roundsX_eq, XoodooArm.view0, ← h]
  rfl

theorem addInput_rc (ad : Nat) (input : Bytes) (m : M) (p : Nat) (s : M × Nat) (h : addInput ad input { m with rc := 0 } p = some s) :
    ∃ m' : M, s.1 = { m' with rc := 0 } := by
  have key : ∀ (read : Nat → Option Lane) (ls : List Loc) (m : M) (p : Nat) (s : M × Nat), eorIn read ls m p = some s → s.1.rc = m.rc := by
    intro read ls
    induction ls with
    | nil => intro m p s h; rw [eorIn, Option.some.injEq] at h; rw [← h]
    | cons l ls ih =>
      intro m p s h
      rw [eorIn] at h
      cases e : read p with
      | none => rw [e] at h; exact absurd h (by simp)
      | some w =>
        rw [e] at h
        rw [ih _ _ _ h]
        cases l <;> rfl
  have key2 : ∀ (read : Nat → Option Lane) (d e : Nat) (m : M) (p : Nat) (s : M × Nat), eorPair read d e m p = some s → s.1.rc = m.rc := by
    intro read d e m p s h
    rw [eorPair] at h
    cases ea : read p with
    | none => rw [ea] at h; exact absurd h (by simp)
    | some w =>
      cases eb : read (p + 4) with
      | none => rw [ea, eb] at h; exact absurd h (by simp)
      | some v =>
        rw [ea, eb] at h
        have := Option.some.inj h
        rw [← this]
        rfl
  have e : s.1.rc = 0 := by
    rw [addInput] at h
    split at h
    · exact key _ _ _ _ _ h
    · obtain ⟨a, ha, h⟩ := Option.bind_eq_some_iff.1 h
      obtain ⟨b, hb, h⟩ := Option.bind_eq_some_iff.1 h
      rw [key2 _ _ _ _ _ _ h, key2 _ _ _ _ _ _ hb, key _ _ _ _ _ ha]
  exact ⟨s.1, by rw [← e]⟩

theorem compressLoop_eq (ad : Nat) (input : Bytes) : ∀ (fuel : Nat) (m : M) (g : Regs) (k x : Lanes) (p n : Nat), store m = stm g →
    compressLoop ad input fuel m k x p n = XoodooArm.compressLoop input fuel g k x p n := by
  intro fuel
  induction fuel with
  | zero => intro m g k x p n _; rfl
  | succ fuel ih =>
    intro m g k x p n h
    rw [compressLoop, XoodooArm.compressLoop]
    have h1 := addInput_R ad input { m with rc := 0 } g p h
    cases e : addInput ad input { m with rc := 0 } p with
    | none =>
      rw [e] at h1
      generalize XoodooArm.eorIn input [2, 3, 4, 5, 6, 7, 8, 9, 10, 11, 12, 14] g p = y at h1
      cases h1
      rfl
    | some s =>
      obtain ⟨m1, hm1⟩ := addInput_rc ad input m p s e
      rw [e] at h1
      obtain ⟨m0, q⟩ := s
      dsimp only at hm1
      subst hm1
      generalize XoodooArm.eorIn input [2, 3, 4, 5, 6, 7, 8, 9, 10, 11, 12, 14] g p = y at h1
      cases h1 with
      | some _ g1 _ h1 =>
        obtain ⟨m2, e2, h2⟩ := rounds_R m1 g1 h1
        simp only [Option.bind_eq_bind, Option.bind_some]
        rw [e2, Option.bind_some]
        have hx : accumulate m2 x = XoodooArm.accumulate (XoodooArm.roundsX g1) x := by
          funext i
          rw [accumulate_eq, XoodooArm.accumulate_eq, h2]
        have hk := rollc_eq m2 (XoodooArm.roundsX g1) k
        rw [hx, hk]
        by_cases hc : n < 48
        · rw [if_pos hc, if_pos hc]
        · rw [if_neg hc, if_neg hc]
          exact ih _ _ _ _ _ _ hk

theorem compress_eq (m : M) (g : Regs) (ad : Nat) (k x : Lanes) (input : Bytes) (length : Nat) :
    compressFastLoop m ad k x input length = XoodooArm.compressFastLoop g k x input length :=
  compressLoop_eq ad input (2 ^ 32) (load k m) (XoodooArm.ldm g k) k x 0 (sub32 length 48) (by rw [store_load, XoodooArm.stm_ldm])

theorem expandLoop_eq (ad : Nat) (k : Lanes) : ∀ (fuel : Nat) (m : M) (g : Regs) (y : Lanes) (out : Bytes) (p n : Nat), store m = stm g →
    expandLoop ad k fuel m y out p n = XoodooArm.expandLoop k fuel g y out p n := by
  intro fuel
  induction fuel with
  | zero => intro m g y out p n _; rfl
  | succ fuel ih =>
    intro m g y out p n h
    obtain ⟨m1, e1, h1⟩ := rounds_R m g h
    have hw : addKey m1 k = XoodooArm.addKey (XoodooArm.roundsX g) k := by rw [addKey_eq, h1, XoodooArm.addKey_list]
    rw [expandLoop, XoodooArm.expandLoop, e1, Option.bind_eq_bind, Option.bind_some, strWords_eq, hw]
    dsimp only
    cases XoodooArm.strWords (XoodooArm.addKey (XoodooArm.roundsX g) k) out p with
    | none => rfl
    | some s =>
      simp only [Option.bind_eq_bind, Option.bind_some]
      have hk := rolle_eq m1 (XoodooArm.roundsX g) y
      rw [hk]
      by_cases hc : n < 48
      · rw [if_pos hc, if_pos hc]
      · rw [if_neg hc, if_neg hc]
        exact ih _ _ _ _ _ _ hk

theorem expand_eq (m : M) (g : Regs) (ad : Nat) (y k : Lanes) (output : Bytes) (length : Nat) :
    expandFastLoop m ad y k output length = XoodooArm.expandFastLoop g y k output length :=
  expandLoop_eq ad k (2 ^ 32) (load y m) (XoodooArm.ldm g y) y output 0 (sub32 length 48) (by rw [store_load, XoodooArm.stm_ldm])

/-! ### Encrypting and decrypting -/

/-- The words of a block are read and written correctly if the pointers are. -/
theorem cryptBlock_congr (dec : Bool) {read read' : Bytes → Nat → Option Lane} {write write' : Bytes → Nat → Lane → Option Bytes} (p q : Nat)
    (hr : ∀ b k, read b (p + 4 * k) = read' b (p + 4 * k)) (hw : ∀ b k w, write b (q + 4 * k) w = write' b (q + 4 * k) w) (m : M)
    (mem : Bytes) : cryptBlock dec read write p q m mem = cryptBlock dec read' write' p q m mem := by
  have h : ∀ (k : Nat) (l : Loc) (s : M × Bytes), cryptLane dec read write l (p + 4 * k) (q + 4 * k) s =
      cryptLane dec read' write' l (p + 4 * k) (q + 4 * k) s := by
    intro k l s
    unfold cryptLane
    simp only [hr, hw]
  unfold cryptBlock
  have h0 := h 0
  have h1 := h 1
  have h2 := h 2
  have h3 := h 3
  have h4 := h 4
  have h5 := h 5
  simp only [Nat.mul_zero, Nat.add_zero, Nat.reduceMul] at h0 h1 h2 h3 h4 h5
  simp only [h0, h1, h2, h3, h4, h5]

/-- The pointers, of which the low two bits are combined with `ands`, with which the function works: both are aligned, or a
bit is set in both. -/
def Good (ad p q : Nat) : Prop := ((ad + p) % 4 = 0 ∧ (ad + q) % 4 = 0) ∨ ((ad + q) % 4) &&& ((ad + p) % 4) ≠ 0

theorem unaligned_and_addr (ad p q : Nat) : unaligned (addr ad q &&& addr ad p) = decide (((ad + q) % 4) &&& ((ad + p) % 4) ≠ 0) := by
  rw [unaligned_and, addr, addr, BitVec.toNat_ofNat, BitVec.toNat_ofNat, Nat.mod_mod_of_dvd _ (by decide), Nat.mod_mod_of_dvd _ (by decide)]

theorem cryptBlock_good (dec : Bool) {ad p q : Nat} (h : Good ad p q) (m : M) (mem : Bytes) :
    (if unaligned (addr ad q &&& addr ad p) then cryptBlock dec mLoadU mStu p q m mem else cryptBlock dec (ldw ad) (stw ad) p q m mem) =
      cryptBlock dec loadWord storeWord p q m mem := by
  rw [unaligned_and_addr]
  by_cases hc : ((ad + q) % 4) &&& ((ad + p) % 4) = 0
  · rw [if_neg (by simp [hc])]
    rcases h with ⟨h1, h2⟩ | h
    · exact cryptBlock_congr dec p q (fun b k => ldw_eq (by omega) b) (fun b k w => stw_eq (by omega) b w) m mem
    · exact absurd hc h
  · rw [if_pos (by simpa using hc)]
    exact cryptBlock_congr dec p q (fun b k => mLoadU_eq b _) (fun b k w => mStu_eq b _ w) m mem

theorem cryptBlock_run (dec : Bool) (m : M) (mem : Bytes) (p q : Nat) (hp : p + 24 ≤ mem.length) (hq : q + 24 ≤ mem.length)
    (hov : q ≤ p ∨ p + 24 ≤ q) : ∃ m', cryptBlock dec loadWord storeWord p q m mem =
        some (m', written mem q [store m 0 ^^^ wd (mem.drop p) 0, store m 1 ^^^ wd (mem.drop p) 1, store m 2 ^^^ wd (mem.drop p) 2,
          store m 3 ^^^ wd (mem.drop p) 3, store m 4 ^^^ wd (mem.drop p) 4, store m 5 ^^^ wd (mem.drop p) 5]) ∧
      ∀ i : Fin 12, store m' i = if i.val < 6 then (if dec then wd (mem.drop p) i.val else store m i ^^^ wd (mem.drop p) i.val) else store m i := by
  have e0 : loadWord mem p = some (wd (mem.drop p) 0) := loadWord_ok mem p 0 (by omega)
  have s0 := fun w => store_written mem q 0 [] w rfl (by omega)
  rw [written_nil] at s0
  have e1 := fun a => load_written mem p q 1 [a] (by omega) (by simp only [List.length_cons, List.length_nil]; omega)
  have s1 := fun a w => store_written mem q 1 [a] w rfl (by omega)
  have e2 := fun a b => load_written mem p q 2 [a, b] (by omega) (by simp only [List.length_cons, List.length_nil]; omega)
  have s2 := fun a b w => store_written mem q 2 [a, b] w rfl (by omega)
  have e3 := fun a b c => load_written mem p q 3 [a, b, c] (by omega) (by simp only [List.length_cons, List.length_nil]; omega)
  have s3 := fun a b c w => store_written mem q 3 [a, b, c] w rfl (by omega)
  have e4 := fun a b c d => load_written mem p q 4 [a, b, c, d] (by omega) (by simp only [List.length_cons, List.length_nil]; omega)
  have s4 := fun a b c d w => store_written mem q 4 [a, b, c, d] w rfl (by omega)
  have e5 := fun a b c d e => load_written mem p q 5 [a, b, c, d, e] (by omega) (by simp only [List.length_cons, List.length_nil]; omega)
  have s5 := fun a b c d e w => store_written mem q 5 [a, b, c, d, e] w rfl (by omega)
  simp only [Nat.mul_zero, Nat.add_zero, Nat.reduceMul, List.nil_append, List.cons_append] at s0 s1 s2 s3 s4 s5 e1 e2 e3 e4 e5
  unfold cryptBlock cryptLane
  simp only [Option.bind_eq_bind, e0, s0, e1, s1, e2, s2, e3, s3, e4, s4, e5, s5, Option.bind_some]
  generalize wd (mem.drop p) = W
  cases dec
  · exact ⟨_, rfl, fun i => by fin_cases i <;> rfl⟩
  · exact ⟨_, rfl, fun i => by fin_cases i <;> rfl⟩

theorem cryptLoop_succ (dec : Bool) (ad fuel : Nat) (m : M) (mem : Bytes) (p q n : Nat) : cryptLoop dec ad (fuel + 1) m mem p q n =
    (permute12Asm m).bind fun m => (if unaligned (addr ad q &&& addr ad p) then cryptBlock dec mLoadU mStu p q m mem
        else cryptBlock dec (ldw ad) (stw ad) p q m mem).bind fun s =>
      if n < 24 then some (mov 12 1 (eors 1 0 (mov 1 12 (movs 0 1 s.1))), s.2, sub32 n 24)
      else cryptLoop dec ad fuel (mov 12 1 (eors 1 0 (mov 1 12 (movs 0 1 s.1)))) s.2 (p + 24) (q + 24) (sub32 n 24) := by
  rw [cryptLoop]
  generalize permute12Asm m = x, cryptLoop dec ad fuel = F, unaligned (addr ad q &&& addr ad p) = u
  cases x with
  | none => simp only [Option.bind_eq_bind, Option.bind_none]
  | some m =>
    cases u <;> simp only [Option.bind_eq_bind, Option.bind_some, if_true, Bool.false_eq_true, if_false]

theorem run62 (dec : Bool) (G : Regs) (mem : Bytes) (p q : Nat) (hp : p + 24 ≤ mem.length) (hq : q + 24 ≤ mem.length)
    (hov : q ≤ p ∨ p + 24 ≤ q) : ∃ g', XoodooArm.cryptBlock dec G mem p q =
        some (g', written mem q [stm G 0 ^^^ wd (mem.drop p) 0, stm G 1 ^^^ wd (mem.drop p) 1, stm G 2 ^^^ wd (mem.drop p) 2,
      stm G 3 ^^^ wd (mem.drop p) 3, stm G 4 ^^^ wd (mem.drop p) 4, stm G 5 ^^^ wd (mem.drop p) 5]) ∧
      ∀ i : Fin 12, stm g' i = if i.val < 6 then (if dec then wd (mem.drop p) i.val else stm G i ^^^ wd (mem.drop p) i.val) else stm G i := 
  XoodooArm.cryptBlock_run dec G mem p q hp hq hov
theorem cryptLoop62_succ (dec : Bool) (fuel : Nat)  (g : Regs) (mem : Bytes) (p q n : Nat)  : XoodooArm.cryptLoop dec (fuel + 1) g mem p q n = 
   (XoodooArm.cryptBlock dec (XoodooArm.permute12Asm g) mem p q).bind fun s =>
     if n < 24 then some (eorImm 8 8 1 s.1, s.2, sub32 n 24) else XoodooArm.cryptLoop dec fuel (eorImm 8 8 1 s.1) s.2 (p + 24) (q + 24) (sub32 n 24) := by
  rw [XoodooArm.cryptLoop]; rfl
theorem crypt_step (dec : Bool) (m1 : M) (G : Regs) (mem : Bytes) (p q : Nat) (F : M → Bytes → Option (M × Bytes × Nat))
    (F' : Regs → Bytes → Option (Regs × Bytes × Nat)) (h : store m1 = stm G) (h1 : p + 24 ≤ mem.length) (h2 : q + 24 ≤ mem.length)
    (h3 : q ≤ p ∨ p + 24 ≤ q) (hF : ∀ m g W, store m = stm g → W.length = mem.length →
      R (F (mov 12 1 (eors 1 0 (mov 1 12 (movs 0 1 m)))) W) (F' (eorImm 8 8 1 g) W)) :
    R ((cryptBlock dec loadWord storeWord p q m1 mem).bind fun s => F (mov 12 1 (eors 1 0 (mov 1 12 (movs 0 1 s.1)))) s.2)
      ((XoodooArm.cryptBlock dec G mem p q).bind fun s => F' (eorImm 8 8 1 s.1) s.2) := by
  obtain ⟨m2, e2, hm2⟩ := cryptBlock_run dec m1 mem p q h1 h2 h3
  obtain ⟨g2, e3, hg2⟩ := run62 dec G mem p q h1 h2 h3
  rw [h] at e2
  rw [e2, e3, Option.bind_some, Option.bind_some]
  refine hF m2 g2 _ ?_ ?_
  · funext i
    rw [hm2, hg2, h]
  · rw [XoodooArm.length_written]

theorem cryptLoop_R (dec : Bool) (ad : Nat) : ∀ (fuel : Nat) (m : M) (g : Regs) (mem : Bytes) (p q n : Nat), store m = stm g → Good ad p q →
    p + n + 24 ≤ mem.length → q + n + 24 ≤ mem.length → (q ≤ p ∨ p + n + 24 ≤ q) → n < 2 ^ 32 →
    R (cryptLoop dec ad fuel m mem p q n) (XoodooArm.cryptLoop dec fuel g mem p q n) := by
  intro fuel
  induction fuel with
  | zero => intro m g mem p q n _ _ _ _ _ _; exact R.none
  | succ fuel ih =>
    intro m g mem p q n h hg h1 h2 h3 h4
    obtain ⟨m1, e1, hm1⟩ := permute_R m g h
    rw [cryptLoop_succ, cryptLoop62_succ, e1, Option.bind_some, cryptBlock_good dec hg]
    refine crypt_step dec m1 (XoodooArm.permute12Asm g) mem p q
      (fun m W => if n < 24 then some (m, W, sub32 n 24) else cryptLoop dec ad fuel m W (p + 24) (q + 24) (sub32 n 24))
      (fun g W => if n < 24 then some (g, W, sub32 n 24) else XoodooArm.cryptLoop dec fuel g W (p + 24) (q + 24) (sub32 n 24))
      hm1 (by omega) (by omega) (by omega) fun m2 g2 W hs hl => ?_
    have hp := store_pad6 m2 g2 hs
    by_cases hc : n < 24
    · rw [if_pos hc, if_pos hc]
      exact R.some _ _ _ hp
    · rw [if_neg hc, if_neg hc, XoodooArm.sub32_eq (by omega) h4]
      refine ih _ _ _ _ _ _ hp ?_ ?_ ?_ ?_ ?_
      · unfold Good at hg ⊢
        rw [show (ad + (p + 24)) % 4 = (ad + p) % 4 by omega, show (ad + (q + 24)) % 4 = (ad + q) % 4 by omega]
        exact hg
      · rw [hl]; omega
      · rw [hl]; omega
      · omega
      · omega

theorem crypt_eq (dec : Bool) (m : M) (g : Regs) (ad : Nat) (A : Lanes) (mem : Bytes) (I O IOLen : Nat) (hg : Good ad I O)
    (h : 24 ≤ IOLen) (hi : I + IOLen ≤ mem.length) (ho : O + IOLen ≤ mem.length) (h32 : IOLen < 2 ^ 32)
    (hov : O ≤ I ∨ I + IOLen ≤ O) : cryptFullBlocks dec m ad A mem I O IOLen = XoodooArm.cryptFullBlocks dec g A mem I O IOLen := by
  have h := cryptLoop_R dec ad (2 ^ 32) (load A m) (XoodooArm.ldm g A) mem I O (sub32 IOLen 24) (by rw [store_load, XoodooArm.stm_ldm]) hg
    (by rw [XoodooArm.sub32_eq h h32]; omega) (by rw [XoodooArm.sub32_eq h h32]; omega) (by rw [XoodooArm.sub32_eq h h32]; omega)
    (by rw [XoodooArm.sub32_eq h h32]; omega)
  exact h.out fun A s => (A, s.1, sub32 IOLen (add32 s.2 24))

/-- If the pointers are not aligned although no bit is set in both, the first block faults. -/
theorem crypt_fault (dec : Bool) (m : M) (ad : Nat) (A : Lanes) (mem : Bytes) (I O IOLen : Nat) (hg : ¬ Good ad I O) :
    cryptFullBlocks dec m ad A mem I O IOLen = none := by
  have hz : ((ad + O) % 4) &&& ((ad + I) % 4) = 0 := by
    by_cases hc : ((ad + O) % 4) &&& ((ad + I) % 4) = 0
    · exact hc
    · exact absurd (Or.inr hc) hg
  have hn : ¬ ((ad + I) % 4 = 0 ∧ (ad + O) % 4 = 0) := fun h => hg (Or.inl h)
  obtain ⟨m1, e1, -⟩ := permute12Asm_eq (load A m)
  have hb : cryptBlock dec (ldw ad) (stw ad) I O m1 mem = none := by
    have hl : cryptLane dec (ldw ad) (stw ad) (.L 3) I O (m1, mem) = none := by
      unfold cryptLane
      by_cases hi : (ad + I) % 4 = 0
      · have ho : stw ad mem O = fun _ => none := funext fun w => if_neg (fun h => hn ⟨hi, h⟩)
        cases ldw ad mem I with
        | none => rfl
        | some w =>
          simp only [Option.bind_eq_bind, Option.bind_some, ho]
          rfl
      · rw [show ldw ad mem I = none from if_neg hi]
        rfl
    rw [cryptBlock, hl]
    rfl
  have hl : cryptLoop dec ad (2 ^ 32) (load A m) mem I O (sub32 IOLen 24) = none := by
    generalize hf : 2 ^ 32 = fuel
    obtain ⟨fuel, rfl⟩ : ∃ f, fuel = f + 1 := ⟨fuel - 1, by omega⟩
    rw [cryptLoop, e1, Option.bind_eq_bind, Option.bind_some, unaligned_and_addr, if_neg (by simp [hz]), hb]
    rfl
  rw [cryptFullBlocks, hl]
  rfl

end XoodooArm6
