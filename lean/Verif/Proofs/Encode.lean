import Verif.Model.SP800185
import Verif.Spec.SP800185
import Verif.Proofs.BitsLemmas
import Verif.Base.Tactics

/-!
Helper lemmas: `left_encode` / `right_encode` against SP 800-185.
-/

namespace Spec

theorem base256_lt {x : Nat} (h : x < 256) : base256 x = [x] := by
  rw [base256]; simp [h]

theorem base256_ge {x : Nat} (h : ¬ x < 256) : base256 x = base256 (x / 256) ++ [x % 256] := by
  conv_lhs => rw [base256]
  simp [h]

theorem base256_length_pos (x : Nat) : 0 < (base256 x).length := by
  by_cases h : x < 256
  · simp [base256_lt h]
  · simp [base256_ge h]

theorem base256_lt_256 (x : Nat) : ∀ d ∈ base256 x, d < 256 := by
  induction x using Nat.strongRecOn with
  | _ x ih =>
    by_cases h : x < 256
    · simp [base256_lt h, h]
    · rw [base256_ge h]
      intro d hd
      rw [List.mem_append] at hd
      rcases hd with hd | hd
      · exact ih (x / 256) (by omega) d hd
      · simp only [List.mem_singleton] at hd; omega

/-- The value of a digit string, most significant first. -/
def value256 (l : List Nat) : Nat := l.foldl (fun a d => 256 * a + d) 0

theorem value256_snoc (l : List Nat) (d : Nat) : value256 (l ++ [d]) = 256 * value256 l + d := by
  simp [value256]

theorem value256_base256 (x : Nat) : value256 (base256 x) = x := by
  induction x using Nat.strongRecOn with
  | _ x ih =>
    by_cases h : x < 256
    · simp [base256_lt h, value256]
    · rw [base256_ge h, value256_snoc, ih (x / 256) (by omega)]; omega

theorem base256_length_le_iff (x n : Nat) (hn : 0 < n) : (base256 x).length ≤ n ↔ x < 256 ^ n := by
  induction n generalizing x with
  | zero => omega
  | succ n ih =>
    by_cases h : x < 256
    · have : 256 ^ 1 ≤ 256 ^ (n + 1) := Nat.pow_le_pow_right (by omega) (by omega)
      simp only [base256_lt h, List.length_singleton]
      constructor
      · intro _; omega
      · intro _; omega
    · rw [base256_ge h]
      simp only [List.length_append, List.length_singleton, Nat.add_le_add_iff_right]
      by_cases hn0 : n = 0
      · subst hn0
        have := base256_length_pos (x / 256)
        constructor
        · intro h; omega
        · intro h'; simp at h'; omega
      · rw [ih _ (by omega), Nat.pow_succ]
        constructor
        · intro h; omega
        · intro h; omega

end Spec

namespace SP800185
open Spec

theorem ofByte_ofNat_enc8 (i : Nat) : Bits.ofByte (BitVec.ofNat 8 i) = enc8 i := by
  unfold Bits.ofByte enc8
  apply List.map_congr_left
  intro j hj
  rw [List.mem_range] at hj
  rw [BitVec.getLsbD_ofNat]; simp [hj]

theorem countBytes_eq (k : Nat) : ∀ v : BitVec 64, v.toNat < 256 ^ k →
    countBytes k v = if v = 0 then 0 else (base256 v.toNat).length := by
  induction k with
  | zero =>
    intro v hv
    have : v = 0 := by apply BitVec.eq_of_toNat_eq; simp; simp at hv; exact hv
    simp [countBytes, this]
  | succ k ih =>
    intro v hv
    unfold countBytes
    by_cases h0 : v = 0
    · simp [h0]
    · simp only [h0, if_false]
      have e : (v >>> 8).toNat = v.toNat / 256 := by
        rw [BitVec.toNat_ushiftRight, Nat.shiftRight_eq_div_pow]
      rw [ih (v >>> 8) (by rw [e]; rw [Nat.pow_succ] at hv; omega)]
      have hiff : v >>> 8 = 0 ↔ v.toNat < 256 := by
        rw [← BitVec.toNat_inj, e]; simp
      by_cases h : v.toNat < 256
      · simp [hiff.2 h, base256_lt h]
      · have h' : ¬ v >>> 8 = 0 := fun hh => h (hiff.1 hh)
        simp only [h', if_false, e]
        rw [base256_ge h]; simp

theorem encodeLen_eq (v : BitVec 64) : encodeLen v = (base256 v.toNat).length := by
  have hv : v.toNat < 256 ^ 8 := by have := v.isLt; omega
  have hp := base256_length_pos v.toNat
  unfold encodeLen
  rw [countBytes_eq 8 v hv]
  by_cases h0 : v = 0
  · subst h0; simp [base256_lt]
  · simp only [h0, if_false]
    rw [if_neg (by omega)]

theorem encodeLen_le (v : BitVec 64) : 1 ≤ encodeLen v ∧ encodeLen v ≤ 8 := by
  rw [encodeLen_eq]
  refine ⟨base256_length_pos _, (base256_length_le_iff _ 8 (by omega)).2 ?_⟩
  have := v.isLt; omega

/-- Digits by division. -/
def encN (x n : Nat) : List Nat := (List.range n).map fun i => x / 256 ^ (n - (i + 1)) % 256

theorem encN_succ (x n : Nat) : encN x (n + 1) = encN (x / 256) n ++ [x % 256] := by
  unfold encN
  rw [List.range_succ, List.map_append]
  congr 1
  · apply List.map_congr_left
    intro i hi
    rw [List.mem_range] at hi
    rw [Nat.div_div_eq_div_mul, ← Nat.pow_succ']
    congr 3; omega
  · simp

theorem encN_base256 (x : Nat) : encN x (base256 x).length = base256 x := by
  induction x using Nat.strongRecOn with
  | _ x ih =>
    by_cases h : x < 256
    · simp [base256_lt h, encN, Nat.mod_eq_of_lt h]
    · rw [base256_ge h, List.length_append, List.length_singleton, encN_succ, ih (x / 256) (by omega)]

theorem encodeBytes_eq (v : BitVec 64) (n : Nat) :
    encodeBytes v n = (encN v.toNat n).map (BitVec.ofNat 8) := by
  unfold encodeBytes encN
  rw [List.map_map]
  apply List.map_congr_left
  intro i _
  apply BitVec.eq_of_toNat_eq
  simp only [Function.comp, BitVec.toNat_setWidth, BitVec.toNat_ofNat, BitVec.toNat_ushiftRight,
    Nat.shiftRight_eq_div_pow, Nat.mod_mod]
  congr 2
  rw [Nat.pow_mul]

theorem encodeBytes_base256 (v : BitVec 64) :
    encodeBytes v (encodeLen v) = (base256 v.toNat).map (BitVec.ofNat 8) := by
  rw [encodeBytes_eq, encodeLen_eq, encN_base256]

theorem ofBytes_map_ofNat (l : List Nat) : Bits.ofBytes (l.map (BitVec.ofNat 8)) = l.flatMap enc8 := by
  induction l with
  | nil => rfl
  | cons a l ih =>
    rw [List.map_cons, Bits.ofBytes_cons, ih, ofByte_ofNat_enc8, List.flatMap_cons]

theorem ofBytes_leftEncode (v : BitVec 64) : Bits.ofBytes (leftEncode v) = left_encode v.toNat := by
  unfold leftEncode left_encode
  rw [Bits.ofBytes_cons, encodeBytes_base256, ofBytes_map_ofNat, ofByte_ofNat_enc8, encodeLen_eq]

theorem ofBytes_rightEncode (v : BitVec 64) : Bits.ofBytes (rightEncode v) = right_encode v.toNat := by
  unfold rightEncode right_encode
  rw [Bits.ofBytes_append, Bits.ofBytes_cons, encodeBytes_base256, ofBytes_map_ofNat, ofByte_ofNat_enc8,
    encodeLen_eq]
  simp

theorem length_leftEncode (v : BitVec 64) : (leftEncode v).length = encodeLen v + 1 := by
  simp [leftEncode, encodeBytes]

theorem length_rightEncode (v : BitVec 64) : (rightEncode v).length = encodeLen v + 1 := by
  simp [rightEncode, encodeBytes]

theorem leftEncode_nat {x : Nat} (h : x < 2 ^ 64) :
    Bits.ofBytes (leftEncode (BitVec.ofNat 64 x)) = left_encode x := by
  rw [ofBytes_leftEncode, BitVec.toNat_ofNat, Nat.mod_eq_of_lt h]

theorem rightEncode_nat {x : Nat} (h : x < 2 ^ 64) :
    Bits.ofBytes (rightEncode (BitVec.ofNat 64 x)) = right_encode x := by
  rw [ofBytes_rightEncode, BitVec.toNat_ofNat, Nat.mod_eq_of_lt h]

/-! ### Unique decoding, at the level of bytes -/

theorem leftEncode_prefix {v w : BitVec 64} {a b : Bytes} (h : leftEncode v ++ a = leftEncode w ++ b) :
    v = w ∧ a = b := by
  have hv := encodeLen_le v
  have hw := encodeLen_le w
  have h1 : encodeLen v = encodeLen w := by
    have := congrArg List.head? h
    simp only [leftEncode, List.cons_append, List.head?_cons, Option.some.injEq] at this
    have := congrArg BitVec.toNat this
    simp only [BitVec.toNat_ofNat] at this
    omega
  obtain ⟨h2, h3⟩ := List.append_inj h (by rw [length_leftEncode, length_leftEncode, h1])
  refine ⟨?_, h3⟩
  simp only [leftEncode, List.cons.injEq] at h2
  have h4 := h2.2
  rw [encodeBytes_base256, encodeBytes_base256] at h4
  have h5 : base256 v.toNat = base256 w.toNat := by
    have h6 := congrArg (List.map BitVec.toNat) h4
    rw [List.map_map, List.map_map] at h6
    have aux : ∀ l : List Nat, (∀ d ∈ l, d < 256) → l.map (BitVec.toNat ∘ BitVec.ofNat 8) = l := by
      intro l hl
      conv_rhs => rw [← List.map_id l]
      apply List.map_congr_left
      intro d hd
      simp [Nat.mod_eq_of_lt (hl d hd)]
    rwa [aux _ (base256_lt_256 _), aux _ (base256_lt_256 _)] at h6
  have h6 := congrArg value256 h5
  rw [value256_base256, value256_base256] at h6
  exact BitVec.eq_of_toNat_eq h6

theorem rightEncode_suffix {v w : BitVec 64} {a b : Bytes} (h : a ++ rightEncode v = b ++ rightEncode w) :
    v = w ∧ a = b := by
  have hv := encodeLen_le v
  have hw := encodeLen_le w
  have h1 : encodeLen v = encodeLen w := by
    have := congrArg List.getLast? h
    simp only [rightEncode, ← List.append_assoc, List.getLast?_append_cons, List.getLast?_singleton,
      Option.some.injEq] at this
    have := congrArg BitVec.toNat this
    simp only [BitVec.toNat_ofNat] at this
    omega
  obtain ⟨h2, h3⟩ := List.append_inj' h (by rw [length_rightEncode, length_rightEncode, h1])
  refine ⟨?_, h2⟩
  obtain ⟨h4, _⟩ := List.append_inj' h3 rfl
  exact (leftEncode_prefix (a := []) (b := []) (by simp [leftEncode, h1]; rw [← h1]; simpa [h1] using h4)).1

end SP800185
