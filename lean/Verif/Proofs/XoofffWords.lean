import Verif.Proofs.FarfalleRoll
import Verif.Proofs.XoodooSimd
import Verif.Proofs.Simd32State
import Verif.Proofs.Farfalle
import Mathlib.Data.List.GetD
import Mathlib.Tactic.IntervalCases

/-!
The mask, the accumulators and the blocks of Xoofff as arrays of words, and the sequences of words that the rolling functions produce.
-/

namespace XoofffSimd

open Xoodoo (Lane Lanes bytesOfLanes lanesOfBytes byteOf rotl32)
open Simd32 (wd bytes_ext byteOf_wd getD_bytesOfLanes getD_setAt wd_drop getD_xor)

theorem words_ext {a b : Bytes} (ha : a.length = 48) (hb : b.length = 48) (h : ∀ p < 12, wd a p = wd b p) : a = b := by
  apply bytes_ext (ha.trans hb.symm)
  intro j hj
  have e := congrArg (fun w => byteOf w (j % 4)) (h (j / 4) (by omega))
  simp only [byteOf_wd _ _ _ (Nat.mod_lt j (by omega : 4 > 0))] at e
  rwa [show 4 * (j / 4) + j % 4 = j by omega] at e

theorem wd_xor {a b : Bytes} (ha : a.length = 48) (hb : b.length = 48) {p : Nat} (hp : p < 12) :
    wd (Bytes.xor a b) p = wd a p ^^^ wd b p := by
  apply Xoodoo.lane_ext
  intro k hk
  rw [Xoodoo.byteOf_xor, byteOf_wd _ _ _ hk, byteOf_wd _ _ _ hk, byteOf_wd _ _ _ hk, getD_xor _ _ _ (by omega) (by omega)]

theorem wd_take {b : Bytes} {p n : Nat} (hp : 4 * p + 4 ≤ n) : wd (b.take n) p = wd b p :=
  Simd32.wordOfBytes_drop_take b n p hp

theorem wd_bytesOfLanes (A : Lanes) {p : Nat} (hp : p < 12) : wd (bytesOfLanes A) p = A ⟨p, hp⟩ := by
  apply Xoodoo.lane_ext
  intro k hk
  rw [byteOf_wd _ _ _ hk, getD_bytesOfLanes _ _ (by omega)]
  congr 2
  · exact Fin.ext (show (4 * p + k) / 4 = p by omega)
  · omega

theorem lanesOfBytes_eq (b : Bytes) : lanesOfBytes b = fun p => wd b p.val := by
  funext p; rw [lanesOfBytes, wd, Nat.mul_comm]

/-! ### Rolling -/

/-- Rolling the mask once. -/
def rc1 (k : Bytes) : Bytes := (Xoofff.rollc k 1).1

/-- Rolling the accumulator once. -/
def re1 (y : Bytes) : Bytes := (Xoofff.rolle y 1).1

/-- The new word of the mask. -/
def gc (a b _c : Lane) : Lane := a ^^^ ((a <<< 13) ^^^ rotl32 b 3)

/-- The new word of the accumulator. -/
def ge (a b c : Lane) : Lane := rotl32 a 5 ^^^ rotl32 b 13 ^^^ (c &&& b) ^^^ 7

/-- The position of word `p` in the sequence. -/
def pos (p : Nat) : Nat := 3 * (p % 4) + p / 4

/-- A function that shifts the words along the columns and puts a new one at the end. -/
structure Shift (f : Bytes → Bytes) (g : Lane → Lane → Lane → Lane) : Prop where
  len : ∀ k, k.length = 48 → (f k).length = 48
  shift : ∀ k, ∀ q < 11, wd (f k) (4 * (q % 3) + q / 3) = wd k (4 * ((q + 1) % 3) + (q + 1) / 3)
  last : ∀ k, wd (f k) 11 = g (wd k 0) (wd k 4) (wd k 8)

theorem rc1_eq (k : Bytes) : rc1 k = bytesOfLanes (Xoofff.stepc (lanesOfBytes k)) := by
  rw [rc1, Xoofff.rollc_eq]; rfl

theorem re1_eq (k : Bytes) : re1 k = bytesOfLanes (Xoofff.stepe (lanesOfBytes k)) := by
  rw [re1, Xoofff.rolle_eq]; rfl

theorem shift_rc1 : Shift rc1 gc := by
  refine ⟨fun k _ => by rw [rc1_eq, Xoodoo.length_bytesOfLanes], fun k q hq => ?_, fun k => ?_⟩
  · rw [rc1_eq, wd_bytesOfLanes _ (by omega), lanesOfBytes_eq]
    interval_cases q <;> rfl
  · rw [rc1_eq, wd_bytesOfLanes _ (by omega), lanesOfBytes_eq]
    rfl

theorem shift_re1 : Shift re1 ge := by
  refine ⟨fun k _ => by rw [re1_eq, Xoodoo.length_bytesOfLanes], fun k q hq => ?_, fun k => ?_⟩
  · rw [re1_eq, wd_bytesOfLanes _ (by omega), lanesOfBytes_eq]
    interval_cases q <;> rfl
  · rw [re1_eq, wd_bytesOfLanes _ (by omega), lanesOfBytes_eq]
    rfl

/-- The sequence of words. -/
def sq (f : Bytes → Bytes) (k : Bytes) (i : Nat) : Lane := wd (Nat.repeat f i k) 0

section
variable {f : Bytes → Bytes} {g : Lane → Lane → Lane → Lane} (h : Shift f g) {k : Bytes}
include h

theorem Shift.length (hk : k.length = 48) (t : Nat) : (Nat.repeat f t k).length = 48 := by
  induction t with
  | zero => exact hk
  | succ t ih => exact h.len _ ih

theorem Shift.at (t q : Nat) (hq : q < 12) : wd (Nat.repeat f t k) (4 * (q % 3) + q / 3) = sq f k (t + q) := by
  induction q generalizing t with
  | zero => rfl
  | succ q ih =>
    have := ih (t + 1) (by omega)
    rw [show t + 1 + q = t + (q + 1) by omega] at this
    rw [← this]
    exact (h.shift _ q (by omega)).symm

theorem Shift.word (t p : Nat) (hp : p < 12) : wd (Nat.repeat f t k) p = sq f k (t + pos p) := by
  rw [← h.at t (pos p) (by unfold pos; omega)]
  congr 1
  unfold pos; omega

theorem Shift.step (t : Nat) : sq f k (t + 12) = g (sq f k t) (sq f k (t + 1)) (sq f k (t + 2)) := by
  have h1 := h.at (k := k) (t + 1) 11 (by omega)
  rw [show t + 12 = t + 1 + 11 by omega, ← h1, ← h.at t 1 (by omega), ← h.at t 2 (by omega)]
  exact h.last _

end

theorem repeat_add {α : Type} (f : α → α) (a b : Nat) (x : α) : Nat.repeat f (a + b) x = Nat.repeat f b (Nat.repeat f a x) := by
  induction b with
  | zero => rfl
  | succ b ih => exact congrArg f ih

/-! ### Sums -/

/-- `f 0 ^^^ f 1 ^^^ ...`, with `n` terms. -/
def xorTo : Nat → (Nat → Lane) → Lane
  | 0, _ => 0
  | n + 1, f => xorTo n f ^^^ f n

theorem xorTo_congr {n : Nat} {f g : Nat → Lane} (h : ∀ i < n, f i = g i) : xorTo n f = xorTo n g := by
  induction n with
  | zero => rfl
  | succ n ih => rw [xorTo, xorTo, ih fun i hi => h i (by omega), h n (by omega)]

theorem xorTo_xor (n : Nat) (f g : Nat → Lane) : xorTo n (fun i => f i ^^^ g i) = xorTo n f ^^^ xorTo n g := by
  induction n with
  | zero => exact (BitVec.xor_self (x := (0 : Lane))).symm
  | succ n ih => rw [xorTo, xorTo, xorTo, ih]; ac_rfl

theorem xorTo_zero (n : Nat) : xorTo n (fun _ => 0) = 0 := by
  induction n with
  | zero => rfl
  | succ n ih => rw [xorTo, ih]; rfl

theorem xorTo_add (a b : Nat) (f : Nat → Lane) : xorTo (a + b) f = xorTo a f ^^^ xorTo b fun i => f (a + i) := by
  induction b with
  | zero => exact (BitVec.xor_zero).symm
  | succ b ih => rw [← Nat.add_assoc, xorTo, ih, xorTo, BitVec.xor_assoc]

theorem xorTo_mul (N n : Nat) (f : Nat → Lane) : xorTo N (fun l => xorTo n fun j => f (N * j + l)) = xorTo (N * n) f := by
  induction n with
  | zero => exact xorTo_zero N
  | succ n ih => rw [Nat.mul_succ, xorTo_add, ← ih, ← xorTo_xor]; rfl

/-! ### The serial code -/

/-- `Xoodoo_Permute_6rounds` of the reference code. -/
abbrev P6 : Bytes → Bytes := Xoodoo.Ref.permute6

theorem length_P6 (s : Bytes) : (P6 s).length = 48 := Xoodoo.length_bytesOfLanes _

/-- Block `i` of a message. -/
def blk (d : Bytes) (i : Nat) : Bytes := (d.drop (48 * i)).take 48

/-- Word `p` of what block `i` adds to the accumulator. -/
def inc (k d : Bytes) (i p : Nat) : Lane := wd (P6 (Bytes.xor (Nat.repeat rc1 i k) (blk d i))) p

section

variable {C : Farfalle.Cfg} (hw : C.width = 48) (hp : C.permute = P6) (hrc : C.rollc = Xoofff.rollc)
include hw hp hrc

theorem eat_words {k x : Bytes} (hx : x.length = 48) (d : Bytes) (n : Nat) : (Farfalle.eat C n (k, x) d).2.length = 48 ∧
    ∀ q < 12, wd (Farfalle.eat C n (k, x) d).2 q = wd x q ^^^ xorTo n fun i => inc k d i q := by
  have hr : Farfalle.rc C = rc1 := by funext k; rw [Farfalle.rc, hrc]; rfl
  induction n with
  | zero => exact ⟨hx, fun q _ => BitVec.xor_zero.symm⟩
  | succ n ih =>
    have h1 := Farfalle.eat_fst (C := C) n (k, x) d
    rw [hr] at h1
    have e : (Farfalle.eat C (n + 1) (k, x) d).2 = Bytes.xor (Farfalle.eat C n (k, x) d).2 (P6 (Bytes.xor (Nat.repeat rc1 n k) (blk d n))) := by
      rw [Farfalle.eat_add]
      generalize Farfalle.eat C n (k, x) d = st at h1
      obtain ⟨k', x'⟩ := st
      obtain rfl : k' = Nat.repeat rc1 n k := h1
      simp only [Farfalle.eat, hp, hw, blk, Nat.mul_comm 48 n]
    rw [e]
    refine ⟨by rw [Bytes.length_xor, ih.1, length_P6]; rfl, fun q hq => ?_⟩
    rw [wd_xor ih.1 (length_P6 _) hq, ih.2 q hq, xorTo, BitVec.xor_assoc]
    rfl

end

/-- Word `p` of block `r` of the output. -/
def outWord (kRoll y : Bytes) (r p : Nat) : Lane := wd (P6 (Nat.repeat re1 r y)) p ^^^ wd kRoll p

section

variable {C : Farfalle.Cfg} (hp : C.permute = P6) (hre : C.rolle = Xoofff.rolle)

include hp hre in
theorem getD_gen {kRoll : Bytes} (hk : kRoll.length = 48) : ∀ (n : Nat) (y : Bytes) (q : Nat), q < 48 * n →
    (Farfalle.gen C kRoll n y).getD q 0 = byteOf (outWord kRoll y (q / 4 / 12) (q / 4 % 12)) (q % 4)
  | 0, _, q, h => by omega
  | n + 1, y, q, h => by
    have hr : Farfalle.re C y = re1 y := by rw [Farfalle.re, hre]; rfl
    have hl : (Bytes.xor kRoll (P6 y)).length = 48 := by rw [Bytes.length_xor, hk, length_P6]; rfl
    rw [Farfalle.gen, hp, hr]
    by_cases h2 : q < 48
    · rw [List.getD_append _ _ _ _ (by omega), outWord, show q / 4 / 12 = 0 by omega, show q / 4 % 12 = q / 4 by omega, Xoodoo.byteOf_xor,
        byteOf_wd _ _ _ (by omega), byteOf_wd _ _ _ (by omega), getD_xor _ _ _ (by omega) (by rw [length_P6]; omega), BitVec.xor_comm,
        show 4 * (q / 4) + q % 4 = q by omega]
      rfl
    · rw [List.getD_append_right _ _ _ _ (by omega), hl, getD_gen hk n (re1 y) (q - 48) (by omega), outWord, outWord,
        show q / 4 / 12 = (q - 48) / 4 / 12 + 1 by omega, show q / 4 % 12 = (q - 48) / 4 % 12 by omega, show q % 4 = (q - 48) % 4 by omega]
      rw [show (q - 48) / 4 / 12 + 1 = 1 + (q - 48) / 4 / 12 by omega, repeat_add]
      rfl

include hp in
theorem length_gen6 {kRoll : Bytes} (hk : kRoll.length = 48) : ∀ (n : Nat) (y : Bytes), (Farfalle.gen C kRoll n y).length = 48 * n
  | 0, _ => rfl
  | n + 1, y => by
    rw [Farfalle.gen, List.length_append, hp, Bytes.length_xor, hk, length_P6, length_gen6 hk]
    simp only [Nat.min_self]; omega

end

end XoofffSimd
