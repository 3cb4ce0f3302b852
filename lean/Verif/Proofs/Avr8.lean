import Verif.Model.Avr8
import Verif.Spec.Avr8

/-!
# Lemmas on the functions on bytes in the AVR8 assembly
-/

namespace Avr8

open Spec.Avr8 (In bytesAt written)

variable {body : Rg → Option Rg}

/-- A number of copies of a body. -/
def iter (body : Rg → Option Rg) : Nat → Rg → Option Rg
  | 0, s => some s
  | n + 1, s => (body s).bind (iter body n)

theorem iter_add (a b : Nat) : ∀ s, iter body (a + b) s = (iter body a s).bind (iter body b) := by
  induction a with
  | zero => intro s; rw [Nat.zero_add]; rfl
  | succ a ih =>
    intro s
    rw [show a + 1 + b = (a + b) + 1 by omega]
    show (body s).bind _ = ((body s).bind _).bind _
    rw [Option.bind_assoc]
    exact congrArg _ (funext ih)

theorem eight_eq (s : Rg) : eight body s = iter body 8 s := by
  show _ = (body s).bind fun s => (body s).bind fun s => (body s).bind fun s => (body s).bind fun s => (body s).bind fun s => (body s).bind fun s =>
    (body s).bind fun s => (body s).bind some
  simp only [Option.bind_fun_some]
  rfl

theorem iter_eight (n : Nat) : ∀ s, iter (eight body) n s = iter body (8 * n) s := by
  induction n with
  | zero => intro s; rfl
  | succ n ih =>
    intro s
    rw [show 8 * (n + 1) = 8 + 8 * n by omega, iter_add (body := body)]
    show (eight body s).bind _ = _
    rw [eight_eq, funext ih]

theorem toNat_sub {r k : Byte} (h : k.toNat ≤ r.toNat) : (r - k).toNat = r.toNat - k.toNat :=
  BitVec.toNat_sub_of_le (BitVec.le_def.mpr h)

theorem pos_of_ne {r : Byte} (h : r ≠ 0) : 0 < r.toNat := by
  refine Nat.pos_of_ne_zero fun e => h ?_
  exact BitVec.eq_of_toNat_eq e

theorem loop1_eq (fuel : Nat) : ∀ (r : Byte) (s : Rg), r ≠ 0 → r.toNat ≤ fuel → loop1 body fuel r s = iter body r.toNat s := by
  induction fuel with
  | zero => intro r s h0 hf; have := pos_of_ne h0; omega
  | succ fuel ih =>
    intro r s h0 hf
    have hp := pos_of_ne h0
    have e : (r - 1).toNat = r.toNat - 1 := toNat_sub (k := 1) hp
    obtain ⟨n, hn⟩ : ∃ n, r.toNat = n + 1 := ⟨r.toNat - 1, by omega⟩
    rw [hn]
    show (body s).bind (fun s => if r - 1 = 0 then some s else loop1 body fuel (r - 1) s) = (body s).bind (iter body n)
    refine congrArg _ (funext fun t => ?_)
    by_cases h : r - 1 = 0
    · rw [if_pos h]
      have : (r - 1).toNat = 0 := by rw [h]; rfl
      rw [show n = 0 by omega]
      rfl
    · rw [if_neg h, ih _ _ h (by omega), e, hn]
      rfl

theorem compact_eq (r : Byte) (s : Rg) : compact body r s = iter body r.toNat s := by
  unfold compact
  by_cases h : r = 0
  · rw [if_pos h, h]; rfl
  · rw [if_neg h, loop1_eq 256 r s h (by have := r.isLt; omega)]

theorem loop8_eq (fuel : Nat) : ∀ (r : Byte) (s : Rg), r.toNat / 8 < fuel →
    loop8 body fuel r s = (iter body (8 * (r.toNat / 8 + 1)) s).bind fun t => some (t, BitVec.ofNat 8 (r.toNat % 8) - 8) := by
  induction fuel with
  | zero => intro r s h; omega
  | succ fuel ih =>
    intro r s hf
    rw [show 8 * (r.toNat / 8 + 1) = 8 + 8 * (r.toNat / 8) by omega, iter_add, ← eight_eq, Option.bind_assoc]
    show (eight body s).bind (fun s => if r.toNat < 8 then some (s, r - 8) else loop8 body fuel (r - 8) s) = _
    refine congrArg _ (funext fun t => ?_)
    by_cases h : r.toNat < 8
    · rw [if_pos h, show r.toNat / 8 = 0 by omega, show r.toNat % 8 = r.toNat by omega, BitVec.ofNat_toNat, BitVec.setWidth_eq]
      rfl
    · have e : (r - 8).toNat = r.toNat - 8 := toNat_sub (k := 8) (by show 8 ≤ _; omega)
      rw [if_neg h, ih _ _ (by omega), e, show 8 * ((r.toNat - 8) / 8 + 1) = 8 * (r.toNat / 8) by omega, show (r.toNat - 8) % 8 = r.toNat % 8 by omega]

theorem fast_eq (r : Byte) (s : Rg) : fast body r s = iter body r.toNat s := by
  have last : ∀ (q : Byte) (t : Rg), (if q - 8 + 8 = 0 then some t else loop1 body 256 (q - 8 + 8) t) = iter body q.toNat t := by
    intro q t
    rw [BitVec.sub_add_cancel]
    exact compact_eq q t
  unfold fast
  by_cases h : r.toNat < 8
  · rw [if_pos h]
    exact last r s
  · have e : (r - 8).toNat = r.toNat - 8 := toNat_sub (k := 8) (by show 8 ≤ _; omega)
    have hm : (BitVec.ofNat 8 (r.toNat % 8)).toNat = r.toNat % 8 := by rw [BitVec.toNat_ofNat]; omega
    rw [if_neg h, loop8_eq 256 _ _ (by have := r.isLt; omega), e]
    show ((iter body _ s).bind _).bind _ = _
    rw [Option.bind_assoc, show iter body r.toNat s = iter body (8 * ((r.toNat - 8) / 8 + 1) + r.toNat % 8) s by congr 1; omega, iter_add]
    refine congrArg _ (funext fun t => ?_)
    rw [show (r.toNat - 8) % 8 = r.toNat % 8 by omega]
    show (if BitVec.ofNat 8 (r.toNat % 8) - 8 + 8 = 0 then some t else loop1 body 256 (BitVec.ofNat 8 (r.toNat % 8) - 8 + 8) t) = _
    rw [last, hm]

theorem iter_states (S : Nat → Rg) (n : Nat) (h : ∀ i, i < n → body (S i) = some (S (i + 1))) : iter body n (S 0) = some (S n) := by
  induction n with
  | zero => rfl
  | succ n ih =>
    rw [iter_add, ih fun i hi => h i (by omega)]
    show (body (S n)).bind some = _
    rw [h n (by omega)]
    rfl

/-! ### Memory -/

theorem toNat_at {a : BitVec 16} {i : Nat} (h : a.toNat + i < 2 ^ 16) : (a + BitVec.ofNat 16 i).toNat = a.toNat + i := by
  rw [BitVec.toNat_add, BitVec.toNat_ofNat]; omega

theorem at_succ (a : BitVec 16) (i : Nat) : a + BitVec.ofNat 16 i + 1 = a + BitVec.ofNat 16 (i + 1) := by
  rw [BitVec.add_assoc]
  congr 1
  exact (BitVec.ofNat_add i 1).symm

theorem st_written (m : Mem) {d : BitVec 16} (vs : Bytes) (hd : In d vs.length) {i : Nat} (hi : i < vs.length) :
    st (written m d (vs.take i)) (d + BitVec.ofNat 16 i) (vs.getD i 0) = some (written m d (vs.take (i + 1))) := by
  have hd1 := hd.1
  have hd2 := hd.2
  have e : (d + BitVec.ofNat 16 i).toNat = d.toNat + i := toNat_at (by omega)
  unfold st
  rw [if_neg (by omega)]
  refine congrArg some (funext fun a => ?_)
  have l1 : (vs.take i).length = i := by rw [List.length_take]; omega
  have l2 : (vs.take (i + 1)).length = i + 1 := by rw [List.length_take]; omega
  unfold written
  rw [l1, l2]
  by_cases ha : a = d + BitVec.ofNat 16 i
  · have ea : a.toNat = d.toNat + i := by rw [ha, e]
    rw [if_pos ha, if_pos (by omega), ea, show d.toNat + i - d.toNat = i by omega, List.getD_eq_getElem?_getD, List.getD_eq_getElem?_getD,
      List.getElem?_take_of_lt (by omega)]
  · have ea : a.toNat ≠ d.toNat + i := fun h => ha (BitVec.eq_of_toNat_eq (by rw [h, e]))
    rw [if_neg ha]
    by_cases hr : d.toNat ≤ a.toNat ∧ a.toNat < d.toNat + i
    · rw [if_pos hr, if_pos (by omega), List.getD_eq_getElem?_getD, List.getD_eq_getElem?_getD, List.getElem?_take_of_lt (by omega),
        List.getElem?_take_of_lt (by omega)]
    · rw [if_neg hr, if_neg (by omega)]

theorem ld_written (m : Mem) {d p : BitVec 16} (vs : Bytes) {n i : Nat} (hp : In p n) (hi : i < n) (hv : i ≤ vs.length) (hc : Spec.Avr8.Ahead p d n) :
    ld (written m d (vs.take i)) (p + BitVec.ofNat 16 i) = some (m (p + BitVec.ofNat 16 i)) := by
  have h1 := hp.1
  have h2 := hp.2
  have e : (p + BitVec.ofNat 16 i).toNat = p.toNat + i := toNat_at (by omega)
  unfold ld
  rw [if_neg (by omega)]
  refine congrArg some ?_
  unfold written
  rw [List.length_take, e, if_neg (by rcases hc with h | h <;> omega)]

theorem length_bytesAt (m : Mem) (a : BitVec 16) (n : Nat) : (bytesAt m a n).length = n := by
  rw [bytesAt, List.length_map, List.length_range]

theorem getD_bytesAt (m : Mem) (a : BitVec 16) {n i : Nat} (h : i < n) : (bytesAt m a n).getD i 0 = m (a + BitVec.ofNat 16 i) := by
  rw [bytesAt, List.getD_eq_getElem?_getD, List.getElem?_map, List.getElem?_range h]
  rfl

theorem written_nil (m : Mem) (d : BitVec 16) : written m d [] = m := by
  funext a
  unfold written
  rw [if_neg (by show ¬ (_ ∧ _ < _ + 0); omega)]

theorem at_zero (a : BitVec 16) : a + BitVec.ofNat 16 0 = a := BitVec.add_zero a

theorem start {S : Nat → Rg} {s : Rg} {n : Nat} (hs : S 0 = s) (h : ∀ i, i < n → body (S i) = some (S (i + 1))) : iter body n s = some (S n) := by
  rw [← hs]; exact iter_states S n h

theorem addPtr_eq {z : BitVec 16} {r : Byte} (h : z.toNat + r.toNat < 2 ^ 16) : addPtr z r = z + BitVec.ofNat 16 r.toNat := by
  refine BitVec.eq_of_toNat_eq ?_
  rw [toNat_at h]
  show (BitVec.ofNat 16 _).toNat = _
  rw [BitVec.toNat_ofNat]
  have := z.isLt
  have := r.isLt
  show ((z.toNat / 256 + (z.toNat % 256 + r.toNat) / 256) % 256 * 256 + (z.toNat % 256 + r.toNat) % 256) % 2 ^ 16 = _
  omega

/-! ### The loops -/

theorem getD_zipXor (u v : Bytes) (i : Nat) (hu : i < u.length) (hv : i < v.length) : (List.zipWith (· ^^^ ·) u v).getD i 0 = u.getD i 0 ^^^ v.getD i 0 := by
  rw [List.getD_eq_getElem?_getD, List.getD_eq_getElem?_getD, List.getD_eq_getElem?_getD, List.getElem?_zipWith, List.getElem?_eq_getElem hu,
    List.getElem?_eq_getElem hv]
  rfl

theorem addOne_iter (m : Mem) (x y z : BitVec 16) (n : Nat) (hz : In z n) (hx : In x n) (hc : Spec.Avr8.Ahead x z n) :
    iter addOne n ⟨m, x, y, z⟩ = some ⟨written m z (List.zipWith (· ^^^ ·) (bytesAt m z n) (bytesAt m x n)), x + BitVec.ofNat 16 n, y, z + BitVec.ofNat 16 n⟩ := by
  have hl : (List.zipWith (· ^^^ ·) (bytesAt m z n) (bytesAt m x n)).length = n := by
    rw [List.length_zipWith, length_bytesAt, length_bytesAt, Nat.min_self]
  have hg : ∀ i, i < n → (List.zipWith (· ^^^ ·) (bytesAt m z n) (bytesAt m x n)).getD i 0 = m (z + BitVec.ofNat 16 i) ^^^ m (x + BitVec.ofNat 16 i) := by
    intro i hi
    rw [getD_zipXor _ _ _ (by rw [length_bytesAt]; exact hi) (by rw [length_bytesAt]; exact hi), getD_bytesAt _ _ hi, getD_bytesAt _ _ hi]
  generalize List.zipWith (· ^^^ ·) (bytesAt m z n) (bytesAt m x n) = vs at hl hg
  refine (start (S := fun i => ⟨written m z (vs.take i), x + BitVec.ofNat 16 i, y, z + BitVec.ofNat 16 i⟩) ?_ fun i hi => ?_).trans ?_
  · rw [List.take_zero, written_nil, at_zero, at_zero]
  · unfold addOne
    dsimp only
    rw [ld_written m vs hx hi (by omega) hc, Option.bind_eq_bind, Option.bind_some, ld_written m vs hz hi (by omega) (.inl (Nat.le_refl _)), Option.bind_eq_bind,
      Option.bind_some, ← hg i hi, st_written m vs (by rw [hl]; exact hz) (by omega), Option.bind_some, at_succ, at_succ]
  · rw [List.take_of_length_le (by omega)]

theorem overwriteOne_iter (m : Mem) (x y z : BitVec 16) (n : Nat) (hz : In z n) (hx : In x n) (hc : Spec.Avr8.Ahead x z n) :
    iter overwriteOne n ⟨m, x, y, z⟩ = some ⟨written m z (bytesAt m x n), x + BitVec.ofNat 16 n, y, z + BitVec.ofNat 16 n⟩ := by
  have hl := length_bytesAt m x n
  have hg : ∀ i, i < n → (bytesAt m x n).getD i 0 = m (x + BitVec.ofNat 16 i) := fun i hi => getD_bytesAt _ _ hi
  generalize bytesAt m x n = vs at hl hg
  refine (start (S := fun i => ⟨written m z (vs.take i), x + BitVec.ofNat 16 i, y, z + BitVec.ofNat 16 i⟩) ?_ fun i hi => ?_).trans ?_
  · rw [List.take_zero, written_nil, at_zero, at_zero]
  · unfold overwriteOne
    dsimp only
    rw [ld_written m vs hx hi (by omega) hc, Option.bind_eq_bind, Option.bind_some, ← hg i hi, st_written m vs (by rw [hl]; exact hz) (by omega), Option.bind_eq_bind,
      Option.bind_some, at_succ, at_succ]
  · rw [List.take_of_length_le (by omega)]

theorem zeroOne_iter (m : Mem) (x y z : BitVec 16) (n : Nat) (hz : In z n) :
    iter zeroOne n ⟨m, x, y, z⟩ = some ⟨written m z (List.replicate n 0), x, y, z + BitVec.ofNat 16 n⟩ := by
  have hl : (List.replicate n (0 : Byte)).length = n := List.length_replicate
  have hg : ∀ i, i < n → (List.replicate n (0 : Byte)).getD i 0 = 0 := fun i hi => by
    rw [List.getD_eq_getElem?_getD, List.getElem?_replicate, if_pos hi]; rfl
  generalize List.replicate n (0 : Byte) = vs at hl hg
  refine (start (S := fun i => ⟨written m z (vs.take i), x, y, z + BitVec.ofNat 16 i⟩) ?_ fun i hi => ?_).trans ?_
  · rw [List.take_zero, written_nil, at_zero]
  · unfold zeroOne
    dsimp only
    rw [← hg i hi, st_written m vs (by rw [hl]; exact hz) (by omega), Option.bind_eq_bind, Option.bind_some, at_succ]
  · rw [List.take_of_length_le (by omega)]

theorem extractOne_iter (m : Mem) (x y z : BitVec 16) (n : Nat) (hz : In z n) (hx : In x n) (hc : Spec.Avr8.Ahead z x n) :
    iter extractOne n ⟨m, x, y, z⟩ = some ⟨written m x (bytesAt m z n), x + BitVec.ofNat 16 n, y, z + BitVec.ofNat 16 n⟩ := by
  have hl := length_bytesAt m z n
  have hg : ∀ i, i < n → (bytesAt m z n).getD i 0 = m (z + BitVec.ofNat 16 i) := fun i hi => getD_bytesAt _ _ hi
  generalize bytesAt m z n = vs at hl hg
  refine (start (S := fun i => ⟨written m x (vs.take i), x + BitVec.ofNat 16 i, y, z + BitVec.ofNat 16 i⟩) ?_ fun i hi => ?_).trans ?_
  · rw [List.take_zero, written_nil, at_zero, at_zero]
  · unfold extractOne
    dsimp only
    rw [ld_written m vs hz hi (by omega) hc, Option.bind_eq_bind, Option.bind_some, ← hg i hi, st_written m vs (by rw [hl]; exact hx) (by omega), Option.bind_eq_bind,
      Option.bind_some, at_succ, at_succ]
  · rw [List.take_of_length_le (by omega)]

theorem extractAddOne_iter (m : Mem) (x y z : BitVec 16) (n : Nat) (hz : In z n) (hx : In x n) (hy : In y n) (hc : Spec.Avr8.Ahead z y n)
    (hc' : Spec.Avr8.Ahead x y n) : iter extractAddOne n ⟨m, x, y, z⟩ =
      some ⟨written m y (List.zipWith (· ^^^ ·) (bytesAt m z n) (bytesAt m x n)), x + BitVec.ofNat 16 n, y + BitVec.ofNat 16 n, z + BitVec.ofNat 16 n⟩ := by
  have hl : (List.zipWith (· ^^^ ·) (bytesAt m z n) (bytesAt m x n)).length = n := by
    rw [List.length_zipWith, length_bytesAt, length_bytesAt, Nat.min_self]
  have hg : ∀ i, i < n → (List.zipWith (· ^^^ ·) (bytesAt m z n) (bytesAt m x n)).getD i 0 = m (z + BitVec.ofNat 16 i) ^^^ m (x + BitVec.ofNat 16 i) := by
    intro i hi
    rw [getD_zipXor _ _ _ (by rw [length_bytesAt]; exact hi) (by rw [length_bytesAt]; exact hi), getD_bytesAt _ _ hi, getD_bytesAt _ _ hi]
  generalize List.zipWith (· ^^^ ·) (bytesAt m z n) (bytesAt m x n) = vs at hl hg
  refine (start (S := fun i => ⟨written m y (vs.take i), x + BitVec.ofNat 16 i, y + BitVec.ofNat 16 i, z + BitVec.ofNat 16 i⟩) ?_ fun i hi => ?_).trans ?_
  · rw [List.take_zero, written_nil, at_zero, at_zero, at_zero]
  · unfold extractAddOne
    dsimp only
    rw [ld_written m vs hx hi (by omega) hc', Option.bind_eq_bind, Option.bind_some, ld_written m vs hz hi (by omega) hc, Option.bind_eq_bind,
      Option.bind_some, ← hg i hi, st_written m vs (by rw [hl]; exact hy) (by omega), Option.bind_some, at_succ, at_succ, at_succ]
  · rw [List.take_of_length_le (by omega)]

end Avr8
