import Verif.Model.KeccakSum
import Verif.Spec.KeccakSum

/-!
# The encodings of KeccakSum
-/

namespace KeccakSum

open Spec.KeccakSum (groups bitsMsb number char alphabet base64 hex)

theorem byte_sum : ∀ a : Byte, a.toNat = 128 * (a.getLsbD 7).toNat + 64 * (a.getLsbD 6).toNat + 32 * (a.getLsbD 5).toNat +
    16 * (a.getLsbD 4).toNat + 8 * (a.getLsbD 3).toNat + 4 * (a.getLsbD 2).toNat + 2 * (a.getLsbD 1).toNat + (a.getLsbD 0).toNat := by
  decide +kernel

theorem ofByte_reverse (a : Byte) : (Bits.ofByte a).reverse = [a.getLsbD 7, a.getLsbD 6, a.getLsbD 5, a.getLsbD 4, a.getLsbD 3,
    a.getLsbD 2, a.getLsbD 1, a.getLsbD 0] := rfl

theorem bitsMsb_cons (a : Byte) (t : Bytes) : bitsMsb (a :: t) = (Bits.ofByte a).reverse ++ bitsMsb t := rfl

theorem groups_nil {k : Nat} (hk : 0 < k) : groups k [] = [] := by
  have : (0 + k - 1) / k = 0 := Nat.div_eq_of_lt (by omega)
  simp only [groups, List.length_nil, this, List.range_zero, List.map_nil]

theorem groups_append {k : Nat} (hk : 0 < k) (g t : Bits) (hg : g.length = k) : groups k (g ++ t) = g :: groups k t := by
  have e : ((g ++ t).length + k - 1) / k = (t.length + k - 1) / k + 1 := by
    rw [List.length_append, hg, ← Nat.add_div_right _ hk]
    congr 1
    omega
  simp only [groups, e, List.range_succ_eq_map, List.map_cons, List.map_map, Nat.zero_mul, List.drop_zero]
  congr 1
  · rw [List.take_left' hg, hg]
    simp
  · apply List.map_congr_left
    intro i _
    have : (i + 1) * k = g.length + i * k := by rw [hg, Nat.succ_mul, Nat.add_comm]
    simp only [Function.comp, Nat.succ_eq_add_one, this]
    rw [List.drop_append, List.drop_of_length_le (by omega), Nat.add_sub_cancel_left]
    simp

theorem groups_short {k : Nat} (g : Bits) (h0 : 0 < g.length) (hg : g.length < k) :
    groups k g = [g ++ List.replicate (k - g.length) false] := by
  have e : (g.length + k - 1) / k = 1 := by
    have : g.length + k - 1 = (g.length - 1) + k := by omega
    rw [this, Nat.add_div_right _ (by omega), Nat.div_eq_of_lt (by omega)]
  simp only [groups, e, List.range_one, List.map_cons, List.map_nil, Nat.zero_mul, List.drop_zero]
  rw [List.take_of_length_le (by omega)]

/-! ### Hexadecimal -/

theorem hex_nil : hex [] = [] := by rw [hex, bitsMsb, List.flatMap_nil, groups_nil (by decide)]; rfl

theorem hex_cons (a : Byte) (t : Bytes) :
    hex (a :: t) = char "0123456789abcdef".toList (a.toNat / 16) :: char "0123456789abcdef".toList (a.toNat % 16) :: hex t := by
  have e : bitsMsb (a :: t) = [a.getLsbD 7, a.getLsbD 6, a.getLsbD 5, a.getLsbD 4] ++
      ([a.getLsbD 3, a.getLsbD 2, a.getLsbD 1, a.getLsbD 0] ++ bitsMsb t) := by
    rw [bitsMsb_cons, ofByte_reverse]; rfl
  have h := byte_sum a
  have b := fun k => Bool.toNat_le (a.getLsbD k)
  have b0 := b 0; have b1 := b 1; have b2 := b 2; have b3 := b 3; have b4 := b 4; have b5 := b 5; have b6 := b 6; have b7 := b 7
  have n0 : number [a.getLsbD 7, a.getLsbD 6, a.getLsbD 5, a.getLsbD 4] = a.toNat / 16 := by
    simp only [number, List.foldl_cons, List.foldl_nil]; omega
  have n1 : number [a.getLsbD 3, a.getLsbD 2, a.getLsbD 1, a.getLsbD 0] = a.toNat % 16 := by
    simp only [number, List.foldl_cons, List.foldl_nil]; omega
  unfold hex
  rw [e, groups_append (k := 4) (by decide) _ _ rfl, groups_append (k := 4) (by decide) _ _ rfl, List.map_cons, List.map_cons, n0, n1]

theorem hexchars_get (v : Nat) (hv : v < 16) : hexchars[v]? = some (char "0123456789abcdef".toList v) := by
  have h : ∀ v : Fin 16, hexchars[v.1]? = some (char "0123456789abcdef".toList v.1) := by decide +kernel
  exact h ⟨v, hv⟩

theorem length_hex (s : Bytes) : (hex s).length = 2 * s.length := by
  induction s with
  | nil => rw [hex_nil]; rfl
  | cons a t ih => rw [hex_cons, List.length_cons, List.length_cons, ih, List.length_cons]; omega

theorem getElem?_of_drop_take {s : Bytes} {n x : Nat} {a : Byte} {t : Bytes} (h : (s.take n).drop x = a :: t) :
    s[x]? = some a ∧ x < n ∧ (s.take n).drop (x + 1) = t := by
  have hx : x < n := by
    rcases Nat.lt_or_ge x n with hc | hc
    · exact hc
    · rw [List.drop_of_length_le (by simp; omega)] at h
      cases h
  refine ⟨?_, hx, ?_⟩
  · have := congrArg List.head? h
    rw [List.head?_drop, List.getElem?_take, if_pos hx] at this
    exact this
  · rw [← List.drop_drop, h]; rfl

theorem drop_take_nil {s : Bytes} {n x : Nat} (hn : n ≤ s.length) (h : (s.take n).drop x = []) : n ≤ x := by
  rw [List.drop_eq_nil_iff, List.length_take] at h; omega

theorem hexLoop_eq (data : Bytes) (n size : Nat) (hn : n ≤ data.length) : ∀ (rest : Bytes) (x : Nat) (r : Bytes) (fuel : Nat),
    (data.take n).drop x = rest → rest.length < fuel → r.length ≤ size →
    ∃ c w, hexLoop data n size fuel x r = some (c, w) ∧ w.length ≤ size ∧ c ≤ 1 ∧ (c = 0 ↔ r.length + 2 * rest.length < size) ∧
      (c = 0 → w = r ++ hex rest ++ [0]) := by
  intro rest
  induction rest with
  | nil =>
    intro x r fuel h hf hr
    obtain ⟨fuel, rfl⟩ : ∃ k, fuel = k + 1 := ⟨fuel - 1, by simp at hf; omega⟩
    have hx := drop_take_nil hn h
    rw [hexLoop, if_neg (by omega)]
    by_cases hs : r.length ≥ size
    · rw [if_pos hs]
      exact ⟨1, r, rfl, hr, by omega, by simp; omega, by simp⟩
    · rw [if_neg hs]
      exact ⟨0, _, rfl, by simp; omega, by omega, by simp; omega, by simp [hex_nil]⟩
  | cons a t ih =>
    intro x r fuel h hf hr
    obtain ⟨fuel, rfl⟩ : ∃ k, fuel = k + 1 := ⟨fuel - 1, by simp at hf; omega⟩
    obtain ⟨h1, h2, h3⟩ := getElem?_of_drop_take h
    rw [hexLoop, if_pos h2]
    by_cases hs : r.length ≥ size
    · rw [if_pos hs]
      exact ⟨1, r, rfl, hr, by omega, by simp; omega, by simp⟩
    · rw [if_neg hs]
      have ha := a.isLt
      have e1 : hexchars[a.toNat / 16 % 16]? = some (char "0123456789abcdef".toList (a.toNat / 16)) := by
        rw [hexchars_get _ (Nat.mod_lt _ (by decide)), Nat.mod_eq_of_lt (by omega)]
      have e2 := hexchars_get (a.toNat % 16) (Nat.mod_lt _ (by decide))
      simp only [h1, e1, Option.bind_eq_bind, Option.bind_some]
      by_cases hs2 : (r ++ [char "0123456789abcdef".toList (a.toNat / 16)]).length ≥ size
      · rw [if_pos hs2]
        have := hs2
        simp only [List.length_append, List.length_singleton] at this
        exact ⟨1, _, rfl, by simp; omega, by omega, by simp; omega, by simp⟩
      · rw [if_neg hs2]
        simp only [e2, Option.bind_some]
        simp only [List.length_append, List.length_singleton] at hs2
        obtain ⟨c, w, k1, k2, k3, k4, k5⟩ := ih (x + 1) (r ++ [char "0123456789abcdef".toList (a.toNat / 16)] ++
          [char "0123456789abcdef".toList (a.toNat % 16)]) fuel h3 (by simp at hf; omega) (by simp; omega)
        refine ⟨c, w, k1, k2, k3, ?_, ?_⟩
        · rw [k4]; simp only [List.length_append, List.length_nil, List.length_cons]; omega
        · intro hc; rw [k5 hc, hex_cons]; simp

theorem hexencode_eq (data : Bytes) (n size : Nat) (hn : n ≤ data.length) :
    ∃ c w, hexencode data n size = some (c, w) ∧ w.length ≤ size ∧ c ≤ 1 ∧ (c = 0 ↔ 2 * n < size) ∧
      (c = 0 → w = hex (data.take n) ++ [0]) := by
  have hl : (data.take n).length = n := by simp; omega
  obtain ⟨c, w, k1, k2, k3, k4, k5⟩ := hexLoop_eq data n size hn (data.take n) 0 [] (n + 1) rfl (by omega) (by simp)
  exact ⟨c, w, k1, k2, k3, by rw [k4, hl]; simp, by simpa using k5⟩

/-! ### base64 -/

theorem base64chars_get (v : Nat) (hv : v < 64) : base64chars[v]? = some (char alphabet v) := by
  have h : ∀ v : Fin 64, base64chars[v.1]? = some (char alphabet v.1) := by decide +kernel
  exact h ⟨v, hv⟩

/-- The characters of three bytes. -/
def quadText (a b c : Nat) : Bytes :=
  [char alphabet (a / 4), char alphabet (a % 4 * 16 + b / 16), char alphabet (b % 16 * 4 + c / 64), char alphabet (c % 64)]

theorem bit_le (a : Byte) : (a.getLsbD 0).toNat ≤ 1 ∧ (a.getLsbD 1).toNat ≤ 1 ∧ (a.getLsbD 2).toNat ≤ 1 ∧ (a.getLsbD 3).toNat ≤ 1 ∧
    (a.getLsbD 4).toNat ≤ 1 ∧ (a.getLsbD 5).toNat ≤ 1 ∧ (a.getLsbD 6).toNat ≤ 1 ∧ (a.getLsbD 7).toNat ≤ 1 :=
  ⟨Bool.toNat_le _, Bool.toNat_le _, Bool.toNat_le _, Bool.toNat_le _, Bool.toNat_le _, Bool.toNat_le _, Bool.toNat_le _,
    Bool.toNat_le _⟩

theorem num0 (a : Byte) : number [a.getLsbD 7, a.getLsbD 6, a.getLsbD 5, a.getLsbD 4, a.getLsbD 3, a.getLsbD 2] = a.toNat / 4 := by
  have h := byte_sum a; have b := bit_le a
  simp only [number, List.foldl_cons, List.foldl_nil]; omega

theorem num1 (a b : Byte) : number [a.getLsbD 1, a.getLsbD 0, b.getLsbD 7, b.getLsbD 6, b.getLsbD 5, b.getLsbD 4] =
    a.toNat % 4 * 16 + b.toNat / 16 := by
  have h := byte_sum a; have h' := byte_sum b; have k := bit_le a; have k' := bit_le b
  simp only [number, List.foldl_cons, List.foldl_nil]; omega

theorem num2 (b c : Byte) : number [b.getLsbD 3, b.getLsbD 2, b.getLsbD 1, b.getLsbD 0, c.getLsbD 7, c.getLsbD 6] =
    b.toNat % 16 * 4 + c.toNat / 64 := by
  have h := byte_sum b; have h' := byte_sum c; have k := bit_le b; have k' := bit_le c
  simp only [number, List.foldl_cons, List.foldl_nil]; omega

theorem num3 (c : Byte) : number [c.getLsbD 5, c.getLsbD 4, c.getLsbD 3, c.getLsbD 2, c.getLsbD 1, c.getLsbD 0] = c.toNat % 64 := by
  have h := byte_sum c; have b := bit_le c
  simp only [number, List.foldl_cons, List.foldl_nil]; omega

theorem groups3 (a b c : Byte) (t : Bytes) : (groups 6 (bitsMsb (a :: b :: c :: t))).map (fun g => char alphabet (number g)) =
    quadText a.toNat b.toNat c.toNat ++ (groups 6 (bitsMsb t)).map (fun g => char alphabet (number g)) := by
  have e : bitsMsb (a :: b :: c :: t) = [a.getLsbD 7, a.getLsbD 6, a.getLsbD 5, a.getLsbD 4, a.getLsbD 3, a.getLsbD 2] ++
      ([a.getLsbD 1, a.getLsbD 0, b.getLsbD 7, b.getLsbD 6, b.getLsbD 5, b.getLsbD 4] ++
      ([b.getLsbD 3, b.getLsbD 2, b.getLsbD 1, b.getLsbD 0, c.getLsbD 7, c.getLsbD 6] ++
      ([c.getLsbD 5, c.getLsbD 4, c.getLsbD 3, c.getLsbD 2, c.getLsbD 1, c.getLsbD 0] ++ bitsMsb t))) := by
    rw [bitsMsb_cons, bitsMsb_cons, bitsMsb_cons, ofByte_reverse, ofByte_reverse, ofByte_reverse]; rfl
  rw [e, groups_append (k := 6) (by decide) _ _ rfl, groups_append (k := 6) (by decide) _ _ rfl,
    groups_append (k := 6) (by decide) _ _ rfl, groups_append (k := 6) (by decide) _ _ rfl, List.map_cons, List.map_cons, List.map_cons,
    List.map_cons, num0, num1, num2, num3]
  rfl

theorem groups2 (a b : Byte) : (groups 6 (bitsMsb [a, b])).map (fun g => char alphabet (number g)) =
    (quadText a.toNat b.toNat 0).take 3 := by
  have e : bitsMsb [a, b] = [a.getLsbD 7, a.getLsbD 6, a.getLsbD 5, a.getLsbD 4, a.getLsbD 3, a.getLsbD 2] ++
      ([a.getLsbD 1, a.getLsbD 0, b.getLsbD 7, b.getLsbD 6, b.getLsbD 5, b.getLsbD 4] ++
      [b.getLsbD 3, b.getLsbD 2, b.getLsbD 1, b.getLsbD 0]) := by
    rw [bitsMsb_cons, bitsMsb_cons, ofByte_reverse, ofByte_reverse]; rfl
  have n2 := num2 b 0
  rw [e, groups_append (k := 6) (by decide) _ _ rfl, groups_append (k := 6) (by decide) _ _ rfl,
    groups_short _ (by simp) (by simp), List.map_cons, List.map_cons, num0, num1, List.map_cons, List.map_nil]
  exact congrArg (fun v => [char alphabet (a.toNat / 4), char alphabet (a.toNat % 4 * 16 + b.toNat / 16), char alphabet v]) n2

theorem groups1 (a : Byte) : (groups 6 (bitsMsb [a])).map (fun g => char alphabet (number g)) = (quadText a.toNat 0 0).take 2 := by
  have e : bitsMsb [a] = [a.getLsbD 7, a.getLsbD 6, a.getLsbD 5, a.getLsbD 4, a.getLsbD 3, a.getLsbD 2] ++
      [a.getLsbD 1, a.getLsbD 0] := by
    rw [bitsMsb_cons, ofByte_reverse]; rfl
  have n1 := num1 a 0
  rw [e, groups_append (k := 6) (by decide) _ _ rfl, groups_short _ (by simp) (by simp), List.map_cons, num0, List.map_cons,
    List.map_nil]
  exact congrArg (fun v => [char alphabet (a.toNat / 4), char alphabet v]) n1

theorem base64_nil : base64 [] = [] := by
  unfold base64
  rw [bitsMsb, List.flatMap_nil, groups_nil (by decide)]; rfl

theorem base64_cons3 (a b c : Byte) (t : Bytes) : base64 (a :: b :: c :: t) = quadText a.toNat b.toNat c.toNat ++ base64 t := by
  unfold base64
  rw [groups3]
  have e : ∀ l : Bytes, (quadText a.toNat b.toNat c.toNat ++ l).length % 4 = l.length % 4 := by
    intro l; rw [List.length_append]; show (4 + _) % 4 = _; omega
  simp only [e, List.append_assoc]

theorem base64_two (a b : Byte) : base64 [a, b] = (quadText a.toNat b.toNat 0).take 3 ++ [0x3D] := by
  unfold base64
  rw [groups2]
  rfl

theorem base64_one (a : Byte) : base64 [a] = (quadText a.toNat 0 0).take 2 ++ [0x3D, 0x3D] := by
  unfold base64
  rw [groups1]
  rfl

theorem length_base64 : ∀ s : Bytes, (base64 s).length = 4 * ((s.length + 2) / 3)
  | [] => by rw [base64_nil]; rfl
  | [a] => by rw [base64_one]; simp [quadText]
  | [a, b] => by rw [base64_two]; simp [quadText]
  | a :: b :: c :: t => by
    rw [base64_cons3, List.length_append, length_base64 t]
    show 4 + _ = _
    simp only [List.length_cons]; omega

/-! #### The code -/

theorem sextet_eq (n : BitVec 32) (k : Nat) : sextet n k = some (char alphabet (n.toNat / 2 ^ k % 64)) := by
  unfold sextet
  have e : ((n >>> k).setWidth 8 &&& 63#8).toNat = n.toNat / 2 ^ k % 64 := by
    rw [BitVec.toNat_and, BitVec.toNat_setWidth, BitVec.toNat_ushiftRight, Nat.shiftRight_eq_div_pow]
    show _ &&& (2 ^ 6 - 1) = _
    rw [Nat.and_two_pow_sub_one_eq_mod]
    omega
  rw [e, base64chars_get _ (Nat.mod_lt _ (by decide))]

/-- The number `triple` computes from the bytes that are there. -/
theorem triple_eq (data : Bytes) (n x : Nat) (a b c : Byte) (ha : data[x]? = some a)
    (hb : if x + 1 < n then data[x + 1]? = some b else b = 0) (hc : if x + 2 < n then data[x + 2]? = some c else c = 0) :
    ∃ v : BitVec 32, triple data n x = some v ∧ v.toNat = a.toNat * 65536 + b.toNat * 256 + c.toNat := by
  have la := a.isLt; have lb := b.isLt; have lc := c.isLt
  unfold triple
  simp only [ha, Option.bind_eq_bind, Option.bind_some]
  have e1 : (BitVec.setWidth 32 a <<< 16).toNat = a.toNat * 65536 := by
    rw [BitVec.toNat_shiftLeft, BitVec.toNat_setWidth, Nat.shiftLeft_eq]; omega
  have e2 : (BitVec.setWidth 32 b <<< 8).toNat = b.toNat * 256 := by
    rw [BitVec.toNat_shiftLeft, BitVec.toNat_setWidth, Nat.shiftLeft_eq]; omega
  have e3 : (BitVec.setWidth 32 c).toNat = c.toNat := by rw [BitVec.toNat_setWidth]; omega
  by_cases h1 : x + 1 < n
  · rw [if_pos h1] at hb
    simp only [if_pos h1, hb, Option.bind_some]
    by_cases h2 : x + 2 < n
    · rw [if_pos h2] at hc
      simp only [if_pos h2, hc, Option.bind_some]
      exact ⟨_, rfl, by rw [BitVec.toNat_add, BitVec.toNat_add, e1, e2, e3]; omega⟩
    · rw [if_neg h2] at hc
      subst hc
      simp only [if_neg h2]
      exact ⟨_, rfl, by rw [BitVec.toNat_add, e1, e2]; show _ = _ + 0; omega⟩
  · rw [if_neg h1] at hb
    have h2 : ¬ x + 2 < n := by omega
    rw [if_neg h2] at hc
    subst hb hc
    simp only [if_neg h1, if_neg h2]
    exact ⟨_, rfl, by rw [e1]; show _ = _ + 0 * 256 + 0; omega⟩

/-- Writing some characters one by one. -/
def putAll (size : Nat) : Bytes → Bytes → Except Bytes Bytes
  | r, [] => .ok r
  | r, c :: l => putc size r c >>= fun r => putAll size r l

theorem putAll_eq (size : Nat) : ∀ (l r : Bytes), r.length ≤ size →
    (r.length + l.length ≤ size → putAll size r l = .ok (r ++ l)) ∧
    (size < r.length + l.length → ∃ w, putAll size r l = .error w ∧ w.length ≤ size) := by
  intro l
  induction l with
  | nil => intro r hr; exact ⟨fun _ => by simp [putAll], fun h => by simp at h; omega⟩
  | cons c l ih =>
    intro r hr
    by_cases hs : r.length ≥ size
    · refine ⟨fun h => by simp at h; omega, fun _ => ⟨r, ?_, hr⟩⟩
      simp only [putAll, putc, if_pos hs]; rfl
    · have e : putAll size r (c :: l) = putAll size (r ++ [c]) l := by simp only [putAll, putc, if_neg hs]; rfl
      obtain ⟨k1, k2⟩ := ih (r ++ [c]) (by simp; omega)
      rw [e]
      refine ⟨fun h => ?_, fun h => k2 (by simp at h ⊢; omega)⟩
      rw [k1 (by simp at h ⊢; omega)]; simp

theorem base64Pad_eq (size : Nat) : ∀ (k : Nat) (r : Bytes) (fuel p : Nat), (p = 3 - k ∨ k = 0 ∧ p = 0) → k < 3 → k < fuel → r.length ≤ size →
    ∃ c w, base64Pad size fuel p r = some (c, w) ∧ w.length ≤ size ∧ c ≤ 1 ∧ (c = 0 ↔ r.length + k < size) ∧
      (c = 0 → w = r ++ List.replicate k 0x3D ++ [0]) := by
  intro k
  induction k with
  | zero =>
    intro r fuel p hp hk hf hr
    obtain ⟨fuel, rfl⟩ : ∃ j, fuel = j + 1 := ⟨fuel - 1, by omega⟩
    have : p = 0 ∨ p = 3 := by omega
    rw [base64Pad, if_neg (by omega)]
    by_cases hs : r.length ≥ size
    · rw [if_pos hs]
      exact ⟨1, r, rfl, hr, by omega, by simp; omega, by simp⟩
    · rw [if_neg hs]
      exact ⟨0, _, rfl, by simp; omega, by omega, by simp; omega, by simp⟩
  | succ k ih =>
    intro r fuel p hp hk hf hr
    obtain ⟨fuel, rfl⟩ : ∃ j, fuel = j + 1 := ⟨fuel - 1, by omega⟩
    rw [base64Pad, if_pos (by omega)]
    by_cases hs : r.length ≥ size
    · rw [if_pos hs]
      exact ⟨1, r, rfl, hr, by omega, by simp; omega, by simp⟩
    · rw [if_neg hs]
      obtain ⟨c, w, h1, h2, h3, h4, h5⟩ := ih (r ++ [0x3D]) fuel (p + 1) (by omega) (by omega) (by omega) (by simp; omega)
      refine ⟨c, w, h1, h2, h3, by rw [h4]; simp; omega, fun h => ?_⟩
      rw [h5 h]
      simp [List.replicate_succ]

/-- The characters written for one to three bytes. -/
theorem base64Step_eq (data : Bytes) (n size x : Nat) (r : Bytes) (a b c : Byte) (hr : r.length ≤ size) (ha : data[x]? = some a)
    (hb : if x + 1 < n then data[x + 1]? = some b else b = 0) (hc : if x + 2 < n then data[x + 2]? = some c else c = 0)
    (l : Bytes) (hl : l = (quadText a.toNat b.toNat c.toNat).take (2 + (if x + 1 < n then 1 else 0) + (if x + 2 < n then 1 else 0))) :
    (r.length + l.length ≤ size → base64Step data n size x r = some (.ok (r ++ l))) ∧
    (size < r.length + l.length → ∃ w, base64Step data n size x r = some (.error w) ∧ w.length ≤ size) := by
  have la := a.isLt; have lb := b.isLt; have lc := c.isLt
  obtain ⟨v, hv, ev⟩ := triple_eq data n x a b c ha hb hc
  have e0 : v.toNat / 2 ^ 18 % 64 = a.toNat / 4 := by omega
  have e1 : v.toNat / 2 ^ 12 % 64 = a.toNat % 4 * 16 + b.toNat / 16 := by omega
  have e2 : v.toNat / 2 ^ 6 % 64 = b.toNat % 16 * 4 + c.toNat / 64 := by omega
  have e3 : v.toNat / 2 ^ 0 % 64 = c.toNat % 64 := by omega
  have e : base64Step data n size x r = some (putAll size r l) := by
    unfold base64Step
    simp only [hv, sextet_eq, e0, e1, e2, e3, Option.bind_eq_bind, Option.bind_some]
    subst hl
    have hid : ∀ r : Bytes, (Except.ok r : Except Bytes Bytes) = pure r := fun _ => rfl
    by_cases h1 : x + 1 < n
    · by_cases h2 : x + 2 < n
      · simp only [h1, h2, if_true, putcIf, decide_true, quadText, List.take, putAll, hid, bind_pure]
      · simp only [h1, h2, if_true, if_false, putcIf, decide_true, decide_false, quadText, List.take, putAll, hid, bind_pure,
          Bool.false_eq_true]
    · have h2 : ¬ x + 2 < n := by omega
      simp only [h1, h2, if_false, putcIf, decide_false, quadText, List.take, putAll, hid, bind_pure, pure_bind,
        Bool.false_eq_true]
  obtain ⟨k1, k2⟩ := putAll_eq size l r hr
  rw [e]
  exact ⟨fun h => by rw [k1 h], fun h => by obtain ⟨w, hw, hs⟩ := k2 h; exact ⟨w, by rw [hw], hs⟩⟩

theorem base64Loop_eq (data : Bytes) (n size : Nat) (hn : n ≤ data.length) : ∀ (fuel : Nat) (rest : Bytes) (x : Nat) (r : Bytes),
    (data.take n).drop x = rest → x % 3 = 0 → x ≤ n → rest.length < fuel → r.length ≤ size →
    ∃ c w, base64Loop data n size fuel x r = some (c, w) ∧ w.length ≤ size ∧ c ≤ 1 ∧
      (c = 0 ↔ r.length + (base64 rest).length < size) ∧ (c = 0 → w = r ++ base64 rest ++ [0]) := by
  intro fuel
  induction fuel with
  | zero => intro rest x r _ _ _ h _; omega
  | succ fuel ih =>
    intro rest x r h hx hxn hf hr
    have hlen : rest.length = n - x := by rw [← h, List.length_drop, List.length_take]; omega
    have pad : ∀ (k x' : Nat) (r' : Bytes), (n % 3 = 3 - k ∨ k = 0 ∧ n % 3 = 0) → k < 3 → n ≤ x' → r'.length ≤ size → ∀ f, 0 < f →
        ∃ c w, base64Loop data n size f x' r' = some (c, w) ∧ w.length ≤ size ∧ c ≤ 1 ∧ (c = 0 ↔ r'.length + k < size) ∧
          (c = 0 → w = r' ++ List.replicate k 0x3D ++ [0]) := by
      intro k x' r' hk1 hk2 hx' hr' f hf
      obtain ⟨f, rfl⟩ : ∃ j, f = j + 1 := ⟨f - 1, by omega⟩
      rw [base64Loop, if_neg (by omega)]
      exact base64Pad_eq size k r' 4 _ hk1 hk2 (by omega) hr'
    match rest, h, hlen, hf with
    | [], h, hlen, hf =>
      simp only [List.length_nil] at hlen
      obtain ⟨c, w, h1, h2, h3, h4, h5⟩ := pad 0 x r (by omega) (by omega) (by omega) hr (fuel + 1) (by omega)
      exact ⟨c, w, h1, h2, h3, by rw [h4, base64_nil]; simp, fun hc => by rw [h5 hc, base64_nil]; simp⟩
    | [a], h, hlen, hf =>
      simp only [List.length_cons, List.length_nil] at hlen hf
      have hp : (n % 3 = 3 - 2 ∨ 2 = 0 ∧ n % 3 = 0) ∧ n ≤ x + 3 ∧ 0 < fuel := by omega
      obtain ⟨ha, _, _⟩ := getElem?_of_drop_take h
      obtain ⟨k1, k2⟩ := base64Step_eq data n size x r a 0 0 hr ha (by rw [if_neg (by omega)]) (by rw [if_neg (by omega)]) _ rfl
      rw [if_neg (by omega), if_neg (by omega)] at k1 k2
      have el : (List.take (2 + 0 + 0) (quadText a.toNat (0 : Byte).toNat (0 : Byte).toNat)).length = 2 := rfl
      rw [base64Loop, if_pos (by omega)]
      by_cases hs : r.length + 2 ≤ size
      · obtain ⟨c, w, h1, h2, h3, h4, h5⟩ := pad 2 (x + 3) (r ++ List.take (2 + 0 + 0) (quadText a.toNat (0 : Byte).toNat (0 : Byte).toNat)) hp.1 (by decide) hp.2.1
          (by rw [List.length_append, el]; exact hs) fuel hp.2.2
        refine ⟨c, w, ?_, h2, h3, ?_, ?_⟩
        · rw [k1 (by rw [el]; exact hs)]; exact h1
        · rw [h4, length_base64, List.length_append, el]; simp only [List.length_cons, List.length_nil]
        · intro hc; rw [h5 hc, base64_one]; simp [List.replicate_succ]
      · obtain ⟨w, hw, hws⟩ := k2 (by rw [el]; omega)
        refine ⟨1, w, by rw [hw]; rfl, hws, by omega, ?_, by simp⟩
        rw [length_base64]; simp; omega
    | [a, b], h, hlen, hf =>
      simp only [List.length_cons, List.length_nil] at hlen hf
      have hp : (n % 3 = 3 - 1 ∨ 1 = 0 ∧ n % 3 = 0) ∧ n ≤ x + 3 ∧ 0 < fuel := by omega
      obtain ⟨ha, _, h⟩ := getElem?_of_drop_take h
      obtain ⟨hb, _, _⟩ := getElem?_of_drop_take h
      obtain ⟨k1, k2⟩ := base64Step_eq data n size x r a b 0 hr ha (by rw [if_pos (by omega)]; exact hb) (by rw [if_neg (by omega)]) _ rfl
      rw [if_pos (by omega), if_neg (by omega)] at k1 k2
      have el : (List.take (2 + 1 + 0) (quadText a.toNat b.toNat (0 : Byte).toNat)).length = 3 := rfl
      rw [base64Loop, if_pos (by omega)]
      by_cases hs : r.length + 3 ≤ size
      · obtain ⟨c, w, h1, h2, h3, h4, h5⟩ := pad 1 (x + 3) (r ++ List.take (2 + 1 + 0) (quadText a.toNat b.toNat (0 : Byte).toNat)) hp.1 (by decide) hp.2.1
          (by rw [List.length_append, el]; exact hs) fuel hp.2.2
        refine ⟨c, w, ?_, h2, h3, ?_, ?_⟩
        · rw [k1 (by rw [el]; exact hs)]; exact h1
        · rw [h4, length_base64, List.length_append, el]; simp only [List.length_cons, List.length_nil]
        · intro hc; rw [h5 hc, base64_two]; simp
      · obtain ⟨w, hw, hws⟩ := k2 (by rw [el]; omega)
        refine ⟨1, w, by rw [hw]; rfl, hws, by omega, ?_, by simp⟩
        rw [length_base64]; simp; omega
    | a :: b :: c :: t, h, hlen, hf =>
      simp only [List.length_cons] at hlen hf
      obtain ⟨ha, _, h⟩ := getElem?_of_drop_take h
      obtain ⟨hb, _, h⟩ := getElem?_of_drop_take h
      obtain ⟨hc, _, h⟩ := getElem?_of_drop_take h
      obtain ⟨k1, k2⟩ := base64Step_eq data n size x r a b c hr ha (by rw [if_pos (by omega)]; exact hb)
        (by rw [if_pos (by omega)]; exact hc) _ rfl
      rw [if_pos (by omega), if_pos (by omega)] at k1 k2
      have el : (List.take (2 + 1 + 1) (quadText a.toNat b.toNat c.toNat)) = quadText a.toNat b.toNat c.toNat := rfl
      have el' : (quadText a.toNat b.toNat c.toNat).length = 4 := rfl
      rw [el] at k1 k2
      rw [base64Loop, if_pos (by omega), base64_cons3]
      by_cases hs : r.length + 4 ≤ size
      · obtain ⟨d, w, h1, h2, h3, h4, h5⟩ := ih t (x + 3) (r ++ quadText a.toNat b.toNat c.toNat) h (by omega) (by omega) (by omega)
          (by rw [List.length_append, el']; exact hs)
        refine ⟨d, w, ?_, h2, h3, ?_, ?_⟩
        · rw [k1 (by rw [el']; exact hs)]; exact h1
        · rw [h4, List.length_append, List.length_append, el']; omega
        · intro hc; rw [h5 hc]; simp
      · obtain ⟨w, hw, hws⟩ := k2 (by rw [el']; omega)
        refine ⟨1, w, by rw [hw]; rfl, hws, by omega, ?_, by simp⟩
        rw [List.length_append, el']; simp; omega

/-- The number of characters and the zero fit, or the code is 1; nothing is written after the array. -/
theorem base64encode_eq (data : Bytes) (n size : Nat) (hn : n ≤ data.length) :
    ∃ c w, base64encode data n size = some (c, w) ∧ w.length ≤ size ∧ c ≤ 1 ∧ (c = 0 ↔ 4 * ((n + 2) / 3) < size) ∧
      (c = 0 → w = base64 (data.take n) ++ [0]) := by
  obtain ⟨c, w, h1, h2, h3, h4, h5⟩ := base64Loop_eq data n size hn (n + 1) (data.take n) 0 [] (by simp) rfl (by omega)
    (by rw [List.length_take]; omega) (by simp)
  refine ⟨c, w, h1, h2, h3, ?_, fun hc => by rw [h5 hc]; rfl⟩
  rw [h4, length_base64, List.length_take, Nat.min_eq_left hn]; simp

/-! ### As C strings -/

theorem char_ne_zero (v : Nat) : char alphabet v ≠ 0 ∧ char "0123456789abcdef".toList v ≠ 0 := by
  have h1 : ∀ v : Fin 64, char alphabet v.1 ≠ 0 := by decide +kernel
  have h2 : ∀ v : Fin 16, char "0123456789abcdef".toList v.1 ≠ 0 := by decide +kernel
  constructor
  · rcases Nat.lt_or_ge v 64 with hv | hv
    · exact h1 ⟨v, hv⟩
    · unfold char; rw [List.getD_eq_getElem?_getD, List.getElem?_eq_none (by exact hv)]; decide
  · rcases Nat.lt_or_ge v 16 with hv | hv
    · exact h2 ⟨v, hv⟩
    · unfold char; rw [List.getD_eq_getElem?_getD, List.getElem?_eq_none (by exact hv)]; decide

theorem hex_ne_zero (s : Bytes) : 0 ∉ hex s := by
  unfold hex
  intro h
  obtain ⟨g, _, e⟩ := List.mem_map.1 h
  exact (char_ne_zero _).2 e

theorem base64_ne_zero (s : Bytes) : 0 ∉ base64 s := by
  unfold base64
  intro h
  rcases List.mem_append.1 h with h | h
  · obtain ⟨g, _, e⟩ := List.mem_map.1 h
    exact (char_ne_zero _).1 e
  · have := List.eq_of_mem_replicate h
    exact absurd this (by decide)

theorem cstr_append (s : Bytes) (h : 0 ∉ s) : cstr (s ++ [0]) = some s := by
  unfold cstr
  rw [if_pos (by simp), List.takeWhile_append_of_pos]
  · simp
  · intro a ha
    have : a ≠ 0 := fun e => h (e ▸ ha)
    simpa using this

end KeccakSum
