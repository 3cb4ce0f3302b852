import Verif.Base.Bits
import Verif.Base.Tactics

namespace Bits

@[simp] theorem length_ofByte (b : Byte) : (ofByte b).length = 8 := by simp [ofByte]

@[simp] theorem ofBytes_nil : ofBytes [] = [] := rfl

@[simp] theorem ofBytes_cons (b : Byte) (s : Bytes) : ofBytes (b :: s) = ofByte b ++ ofBytes s := rfl

@[simp] theorem ofBytes_append (a b : Bytes) : ofBytes (a ++ b) = ofBytes a ++ ofBytes b := by
  simp [ofBytes]

@[simp] theorem length_ofBytes (s : Bytes) : (ofBytes s).length = 8 * s.length := by
  induction s with
  | nil => rfl
  | cons b s ih => simp [ih]; omega

theorem ofByte_zero : ofByte 0 = List.replicate 8 false := by decide

theorem ofBytes_zeros (n : Nat) : ofBytes (Bytes.zeros n) = List.replicate (8 * n) false := by
  induction n with
  | zero => rfl
  | succ n ih =>
    have : Bytes.zeros (n + 1) = 0 :: Bytes.zeros n := rfl
    rw [this, ofBytes_cons, ih, ofByte_zero, List.replicate_append_replicate]
    congr 1; omega

theorem take_ofBytes (s : Bytes) (n : Nat) : (ofBytes s).take (8 * n) = ofBytes (s.take n) := by
  induction s generalizing n with
  | nil => simp
  | cons b s ih =>
    cases n with
    | zero => simp
    | succ n =>
      rw [ofBytes_cons, List.take_succ_cons, ofBytes_cons, List.take_append]
      simp only [length_ofByte]
      have h1 : 8 * (n + 1) - 8 = 8 * n := by omega
      rw [h1, ih, List.take_of_length_le (by simp)]

theorem drop_ofBytes (s : Bytes) (n : Nat) : (ofBytes s).drop (8 * n) = ofBytes (s.drop n) := by
  induction s generalizing n with
  | nil => simp
  | cons b s ih =>
    cases n with
    | zero => simp
    | succ n =>
      rw [ofBytes_cons, List.drop_succ_cons, List.drop_append]
      simp only [length_ofByte]
      have h1 : 8 * (n + 1) - 8 = 8 * n := by omega
      rw [h1, ih, List.drop_eq_nil_of_le (by simp)]
      rfl

theorem ofByte_injective : Function.Injective ofByte := by
  intro a b h
  apply BitVec.eq_of_getLsbD_eq
  intro i hi
  have := congrArg (fun l => l[i]?) h
  simpa [ofByte, hi] using this

theorem ofBytes_injective : Function.Injective ofBytes := by
  intro a
  induction a with
  | nil =>
    intro b h
    have := congrArg List.length h
    simp only [length_ofBytes, List.length_nil] at this
    have h0 : b.length = 0 := by omega
    exact (List.eq_nil_of_length_eq_zero h0).symm
  | cons x a ih =>
    intro b h
    cases b with
    | nil =>
      have := congrArg List.length h
      simp at this
    | cons y b =>
      rw [ofBytes_cons, ofBytes_cons] at h
      obtain ⟨h1, h2⟩ := List.append_inj h (by simp)
      rw [ofByte_injective h1, ih h2]

theorem ofByte_xor (a b : Byte) : ofByte (a ^^^ b) = List.zipWith Bool.xor (ofByte a) (ofByte b) := by
  apply List.ext_getElem?
  intro i
  by_cases h : i < 8
  · simp [ofByte, h]
  · simp [ofByte, h]

theorem ofBytes_xor (a b : Bytes) (h : a.length = b.length) :
    ofBytes (Bytes.xor a b) = List.zipWith Bool.xor (ofBytes a) (ofBytes b) := by
  induction a generalizing b with
  | nil => simp [Bytes.xor]
  | cons x a ih =>
    cases b with
    | nil => simp at h
    | cons y b =>
      simp only [List.length_cons, Nat.add_right_cancel_iff] at h
      have : Bytes.xor (x :: a) (y :: b) = (x ^^^ y) :: Bytes.xor a b := rfl
      rw [this, ofBytes_cons, ofBytes_cons, ofBytes_cons, ih b h, ofByte_xor,
        List.zipWith_append (by simp)]

theorem toNat_append (a b : Bits) : toNat (a ++ b) = toNat a + 2 ^ a.length * toNat b := by
  induction a with
  | nil => simp [toNat]
  | cons x a ih =>
    simp only [List.cons_append, toNat, ih, List.length_cons, Nat.pow_succ]
    ring

theorem toNat_lt (a : Bits) : toNat a < 2 ^ a.length := by
  induction a with
  | nil => simp [toNat]
  | cons x a ih =>
    simp only [toNat, List.length_cons, Nat.pow_succ]
    cases x <;> simp <;> omega

@[simp] theorem toNat_replicate_false (n : Nat) : toNat (List.replicate n false) = 0 := by
  induction n with
  | zero => rfl
  | succ n ih => simp [List.replicate_succ, toNat, ih]

theorem testBit_toNat (a : Bits) (i : Nat) : (toNat a).testBit i = a.getD i false := by
  induction a generalizing i with
  | nil => simp [toNat]
  | cons x a ih =>
    cases i with
    | zero => cases x <;> simp [toNat]
    | succ i =>
      simp only [toNat, List.getD_cons_succ, ← ih]
      rw [Nat.testBit_succ]
      congr 1
      cases x <;> simp <;> omega

theorem ofByte_ofNat (l : Bits) (h : l.length = 8) : ofByte (BitVec.ofNat 8 (toNat l)) = l := by
  apply List.ext_getElem?
  intro i
  by_cases hi : i < 8
  · have : i < l.length := by omega
    simp only [ofByte, List.getElem?_map, List.getElem?_range hi, Option.map_some,
      BitVec.getLsbD_ofNat, hi, decide_true, Bool.true_and, testBit_toNat]
    simp [this]
  · have : ¬ i < l.length := by omega
    simp [ofByte, hi, this]

theorem toNat_ofByte (b : Byte) : toNat (ofByte b) = b.toNat := by
  apply Nat.eq_of_testBit_eq
  intro i
  rw [testBit_toNat]
  by_cases hi : i < 8
  · simp [ofByte, hi, BitVec.getLsbD]
  · have : b.toNat < 2 ^ i := Nat.lt_of_lt_of_le b.isLt (Nat.pow_le_pow_right (by omega) (by omega))
    simp [ofByte, hi, Nat.testBit_lt_two_pow this]

theorem DelimitedBy.ofByte {l : Bits} {d : Byte} (h : DelimitedBy l d) :
    Bits.ofByte d = l ++ [true] ++ List.replicate (7 - l.length) false := by
  obtain ⟨h1, h2⟩ := h
  have h3 : d.toNat = toNat (l ++ [true] ++ List.replicate (7 - l.length) false) := by
    rw [h2, toNat_append, toNat_append]; simp [toNat]
  have h4 : d = BitVec.ofNat 8 (toNat (l ++ [true] ++ List.replicate (7 - l.length) false)) := by
    rw [← h3]; simp
  rw [h4, ofByte_ofNat]
  · simp; omega

theorem DelimitedBy.ne_zero {l : Bits} {d : Byte} (h : DelimitedBy l d) : d ≠ 0 := by
  obtain ⟨h1, h2⟩ := h
  intro h0
  subst h0
  have : 0 < 2 ^ l.length := Nat.two_pow_pos _
  simp only [BitVec.ofNat_eq_ofNat, BitVec.toNat_ofNat, Nat.zero_mod] at h2
  omega

theorem DelimitedBy.ge_iff {l : Bits} {d : Byte} (h : DelimitedBy l d) :
    0x80#8 ≤ d ↔ l.length = 7 := by
  obtain ⟨h1, h2⟩ := h
  have hlt := toNat_lt l
  rw [BitVec.le_def]
  constructor
  · intro h3
    by_contra h4
    have h5 : l.length ≤ 6 := by omega
    have : 2 ^ l.length ≤ 2 ^ 6 := Nat.pow_le_pow_right (by omega) h5
    simp at h3; omega
  · intro h3
    rw [h3] at h2
    simp; omega

/-- Every non-zero byte is the delimited form of exactly one bit string of at most 7 bits. -/
theorem exists_delimitedBy (d : Byte) (h : d ≠ 0) : ∃ l, DelimitedBy l d := by
  have h0 : d.toNat ≠ 0 := by
    intro h1; apply h; apply BitVec.eq_of_toNat_eq; simpa using h1
  have hd := d.isLt
  have hlog : Nat.log2 d.toNat ≤ 7 := by
    have := (Nat.log2_lt h0 (k := 8)).2 hd
    omega
  refine ⟨(Bits.ofByte d).take (Nat.log2 d.toNat), ?_, ?_⟩
  · simp; omega
  · have hl : ((Bits.ofByte d).take (Nat.log2 d.toNat)).length = Nat.log2 d.toNat := by
      simp; omega
    rw [hl]
    have hle : 2 ^ Nat.log2 d.toNat ≤ d.toNat := Nat.log2_self_le h0
    have hlt : d.toNat < 2 ^ (Nat.log2 d.toNat + 1) := Nat.lt_log2_self
    have hsplit := toNat_ofByte d
    rw [← List.take_append_drop (Nat.log2 d.toNat) (Bits.ofByte d), toNat_append, hl] at hsplit
    generalize hq : toNat ((Bits.ofByte d).drop (Nat.log2 d.toNat)) = q at hsplit
    have hp := toNat_lt ((Bits.ofByte d).take (Nat.log2 d.toNat))
    rw [hl] at hp
    rw [Nat.pow_succ] at hlt
    generalize 2 ^ Nat.log2 d.toNat = p at *
    rcases Nat.lt_trichotomy q 1 with h | h | h
    · have : q = 0 := by omega
      subst this; omega
    · subst h; omega
    · have : p * 2 ≤ p * q := Nat.mul_le_mul_left p h
      omega

theorem DelimitedBy.unique {l l' : Bits} {d : Byte} (h : DelimitedBy l d) (h' : DelimitedBy l' d) :
    l = l' := by
  have e := h.ofByte.symm.trans h'.ofByte
  have hl : l.length = l'.length := by
    have a := h.2
    have b := h'.2
    have ha := toNat_lt l
    have hb := toNat_lt l'
    by_contra hne
    rcases Nat.lt_or_gt_of_ne hne with hlt | hlt
    · have : 2 ^ (l.length + 1) ≤ 2 ^ l'.length := Nat.pow_le_pow_right (by omega) hlt
      rw [Nat.pow_succ] at this; omega
    · have : 2 ^ (l'.length + 1) ≤ 2 ^ l.length := Nat.pow_le_pow_right (by omega) hlt
      rw [Nat.pow_succ] at this; omega
  rw [List.append_assoc, List.append_assoc] at e
  exact (List.append_inj e hl).1

end Bits
