import Verif.Proofs.FarfalleRoll
import Verif.Proofs.SimdFast

/-!
The mask, the accumulators and the blocks of Kravatte as arrays of words.
-/

namespace Kravatte

open KeccakP1600 (Lane bytesOfLanes byteOf bytesOfWord)
open Simd (wd bytes_ext byteOf_wd)

theorem words_ext {a b : Bytes} (ha : a.length = 200) (hb : b.length = 200) (h : ∀ p < 25, wd a p = wd b p) : a = b := by
  apply bytes_ext (ha.trans hb.symm)
  intro j hj
  have e := congrArg (fun w => byteOf w (j % 8)) (h (j / 8) (by omega))
  simp only [byteOf_wd _ _ _ (Nat.mod_lt j (by omega : 8 > 0))] at e
  rwa [show 8 * (j / 8) + j % 8 = j by omega] at e

theorem wd_xor {a b : Bytes} (ha : a.length = 200) (hb : b.length = 200) {p : Nat} (hp : p < 25) :
    wd (Bytes.xor a b) p = wd a p ^^^ wd b p := by
  apply KeccakP1600.lane_ext
  intro k hk
  rw [KeccakP1600.byteOf_xor, byteOf_wd _ _ _ hk, byteOf_wd _ _ _ hk, byteOf_wd _ _ _ hk, Simd.getD_xor _ _ _ (by omega) (by omega)]

theorem wd_take {b : Bytes} {p n : Nat} (hp : 8 * p + 8 ≤ n) : wd (b.take n) p = wd b p :=
  Simd.wordOfBytes_drop_take b n p hp

theorem wd_bytesOfLanes (A : KeccakP1600.Lanes) {p : Nat} (hp : p < 25) : wd (bytesOfLanes A) p = A ⟨p, hp⟩ := by
  apply KeccakP1600.lane_ext
  intro k hk
  rw [byteOf_wd _ _ _ hk, Simd.getD_bytesOfLanes _ _ (by omega)]
  congr 2
  · exact Fin.ext (show (8 * p + k) / 8 = p by omega)
  · omega

theorem wd_setAt_lt {x d : Bytes} {off p : Nat} (hp : 8 * p + 8 ≤ off) (h : off + d.length ≤ x.length) :
    wd (Bytes.setAt x off d) p = wd x p := by
  apply KeccakP1600.lane_ext
  intro k hk
  rw [byteOf_wd _ _ _ hk, byteOf_wd _ _ _ hk, Simd.getD_setAt _ _ _ _ h, if_neg (by omega)]

theorem wd_setAt_ge {x d : Bytes} {o p : Nat} (hp : o ≤ p) (h : 8 * o + d.length ≤ x.length) (hd : 8 * (p - o) + 8 ≤ d.length) :
    wd (Bytes.setAt x (8 * o) d) p = wd d (p - o) := by
  apply KeccakP1600.lane_ext
  intro k hk
  rw [byteOf_wd _ _ _ hk, byteOf_wd _ _ _ hk, Simd.getD_setAt _ _ _ _ h, if_pos (by omega)]
  congr 1; omega

theorem wd_pack : ∀ (l : List Lane) (i : Nat) (h : i < l.length), wd (pack l) i = l[i]
  | a :: l, 0, _ => by
    rw [wd, pack, List.flatMap_cons, Nat.mul_zero, List.drop_zero, ← KeccakP1600.wordOfBytes_take,
      List.take_left' (KeccakP1600.length_bytesOfWord a), KeccakP1600.wordOfBytes_bytesOfWord]
    rfl
  | a :: l, i + 1, h => by
    have ih := wd_pack l i (by simpa using h)
    rw [wd, pack, List.flatMap_cons, Nat.mul_add, Nat.add_comm (8 * i), ← List.drop_drop,
      List.drop_left' (show _ = 8 * 1 from KeccakP1600.length_bytesOfWord a)]
    exact ih

theorem unpack5 (k : Bytes) : unpack 5 (k.drop 160) = [wd k 20, wd k 21, wd k 22, wd k 23, wd k 24] := by
  simp only [unpack, wd, List.drop_drop]

theorem unpack10 (y : Bytes) : unpack 10 (y.drop 120) = [wd y 15, wd y 16, wd y 17, wd y 18, wd y 19, wd y 20, wd y 21, wd y 22, wd y 23, wd y 24] := by
  simp only [unpack, wd, List.drop_drop]

/-- Rolling the mask once. -/
def rc1 (k : Bytes) : Bytes := (rollc k 1).1

/-- Rolling the accumulator once. -/
def re1 (y : Bytes) : Bytes := (rolle y 1).1

theorem length_rc1 {k : Bytes} (hk : k.length = 200) : (rc1 k).length = 200 := by
  rw [rc1, rollc_eq, Bytes.length_setAt, hk]

theorem length_re1 {k : Bytes} (hk : k.length = 200) : (re1 k).length = 200 := by
  rw [re1, rolle_eq, Bytes.length_setAt, hk]

theorem wd_rc1 {k : Bytes} (hk : k.length = 200) : (∀ p < 20, wd (rc1 k) p = wd k p) ∧ (∀ j < 4, wd (rc1 k) (20 + j) = wd k (20 + j + 1)) ∧
    wd (rc1 k) 24 = rol64 (wd k 20) 7 ^^^ wd k 21 ^^^ (wd k 21 >>> 3) := by
  have hl : ∀ a b c d e : Lane, (pack [a, b, c, d, e]).length = 40 := fun a b c d e => length_pack _
  have e : rc1 k = Bytes.setAt k (8 * 20) (pack [wd k 21, wd k 22, wd k 23, wd k 24, rol64 (wd k 20) 7 ^^^ wd k 21 ^^^ (wd k 21 >>> 3)]) := by
    rw [rc1, rollc_eq, unpack5]; rfl
  refine ⟨fun p hp => ?_, fun j hj => ?_, ?_⟩
  · rw [e]; exact wd_setAt_lt (by omega) (by rw [hl]; omega)
  · rw [e, wd_setAt_ge (by omega) (by rw [hl]; omega) (by rw [hl]; omega), Nat.add_sub_cancel_left, wd_pack _ _ (by simp; omega)]
    interval_cases j <;> rfl
  · rw [e, wd_setAt_ge (by omega) (by rw [hl]; omega) (by rw [hl]), wd_pack _ _ (by simp)]; rfl

theorem wd_re1 {y : Bytes} (hy : y.length = 200) : (∀ p < 15, wd (re1 y) p = wd y p) ∧ (∀ j < 9, wd (re1 y) (15 + j) = wd y (15 + j + 1)) ∧
    wd (re1 y) 24 = rol64 (wd y 15) 7 ^^^ rol64 (wd y 16) 18 ^^^ (wd y 17 &&& (wd y 16 >>> 1)) := by
  have hl : ∀ l : List Lane, l.length = 10 → (pack l).length = 80 := fun l h => by rw [length_pack, h]
  have e : re1 y = Bytes.setAt y (8 * 15) (pack [wd y 16, wd y 17, wd y 18, wd y 19, wd y 20, wd y 21, wd y 22, wd y 23, wd y 24,
      rol64 (wd y 15) 7 ^^^ rol64 (wd y 16) 18 ^^^ (wd y 17 &&& (wd y 16 >>> 1))]) := by
    rw [re1, rolle_eq, unpack10]; rfl
  refine ⟨fun p hp => ?_, fun j hj => ?_, ?_⟩
  · rw [e]; exact wd_setAt_lt (by omega) (by rw [hl _ rfl]; omega)
  · rw [e, wd_setAt_ge (by omega) (by rw [hl _ rfl]; omega) (by rw [hl _ rfl]; omega), Nat.add_sub_cancel_left, wd_pack _ _ (by simp; omega)]
    interval_cases j <;> rfl
  · rw [e, wd_setAt_ge (by omega) (by rw [hl _ rfl]; omega) (by rw [hl _ rfl]), wd_pack _ _ (by simp)]; rfl

/-- The mask rolled `t` times. -/
def kAt (k : Bytes) (t : Nat) : Bytes := Nat.repeat rc1 t k

/-- The accumulator rolled `t` times. -/
def yAt (y : Bytes) (t : Nat) : Bytes := Nat.repeat re1 t y

theorem length_kAt {k : Bytes} (hk : k.length = 200) (t : Nat) : (kAt k t).length = 200 := by
  induction t with
  | zero => exact hk
  | succ t ih => exact length_rc1 ih

theorem length_yAt {y : Bytes} (hy : y.length = 200) (t : Nat) : (yAt y t).length = 200 := by
  induction t with
  | zero => exact hy
  | succ t ih => exact length_re1 ih

theorem yAt_add (y : Bytes) (a b : Nat) : yAt y (a + b) = yAt (yAt y a) b := by
  induction b with
  | zero => rfl
  | succ b ih => exact congrArg re1 ih

/-- The sequence of words that the mask runs through. -/
def cseq (k : Bytes) (i : Nat) : Lane := wd (kAt k i) 20

/-- The sequence of words that the accumulator runs through. -/
def eseq (y : Bytes) (i : Nat) : Lane := wd (yAt y i) 15

theorem kAt_lo {k : Bytes} (hk : k.length = 200) (t : Nat) {p : Nat} (hp : p < 20) : wd (kAt k t) p = wd k p := by
  induction t with
  | zero => rfl
  | succ t ih => exact ((wd_rc1 (length_kAt hk t)).1 p hp).trans ih

theorem kAt_hi {k : Bytes} (hk : k.length = 200) (t j : Nat) (hj : j < 5) : wd (kAt k t) (20 + j) = cseq k (t + j) := by
  induction j generalizing t with
  | zero => rfl
  | succ j ih =>
    have := ih (t + 1) (by omega)
    rw [show t + 1 + j = t + (j + 1) by omega] at this
    rw [← this]
    exact ((wd_rc1 (length_kAt hk t)).2.1 j (by omega)).symm

theorem cseq_step {k : Bytes} (hk : k.length = 200) (t : Nat) :
    cseq k (t + 5) = rol64 (cseq k t) 7 ^^^ cseq k (t + 1) ^^^ (cseq k (t + 1) >>> 3) := by
  have h1 := kAt_hi hk (t + 1) 4 (by omega)
  rw [show t + 5 = t + 1 + 4 by omega, ← h1, ← kAt_hi hk t 1 (by omega)]
  exact (wd_rc1 (length_kAt hk t)).2.2

theorem yAt_lo {y : Bytes} (hy : y.length = 200) (t : Nat) {p : Nat} (hp : p < 15) : wd (yAt y t) p = wd y p := by
  induction t with
  | zero => rfl
  | succ t ih => exact ((wd_re1 (length_yAt hy t)).1 p hp).trans ih

theorem yAt_hi {y : Bytes} (hy : y.length = 200) (t j : Nat) (hj : j < 10) : wd (yAt y t) (15 + j) = eseq y (t + j) := by
  induction j generalizing t with
  | zero => rfl
  | succ j ih =>
    have := ih (t + 1) (by omega)
    rw [show t + 1 + j = t + (j + 1) by omega] at this
    rw [← this]
    exact ((wd_re1 (length_yAt hy t)).2.1 j (by omega)).symm

theorem eseq_step {y : Bytes} (hy : y.length = 200) (t : Nat) :
    eseq y (t + 10) = rol64 (eseq y t) 7 ^^^ rol64 (eseq y (t + 1)) 18 ^^^ (eseq y (t + 2) &&& (eseq y (t + 1) >>> 1)) := by
  have h1 := yAt_hi hy (t + 1) 9 (by omega)
  rw [show t + 10 = t + 1 + 9 by omega, ← h1, ← yAt_hi hy t 2 (by omega), ← yAt_hi hy t 1 (by omega)]
  exact (wd_re1 (length_yAt hy t)).2.2

end Kravatte
