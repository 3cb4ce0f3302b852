import Verif.Model.KeccakHash
import Verif.Proofs.SpongeAbs

/-! Helper lemmas for Keccak_Hash: concatenation of the last bits with the suffix. -/

namespace KeccakHash

theorem delimitedLastBytes_toNat (b d : Byte) (k : Nat) (hk : k < 8) :
    (delimitedLastBytes b d k).toNat = b.toNat % 2 ^ k + 2 ^ k * d.toNat := by
  have hp : 2 ^ k ≤ 2 ^ 7 := Nat.pow_le_pow_right (by omega) (by omega)
  have hpos : 0 < 2 ^ k := Nat.two_pow_pos k
  have hb := b.isLt
  have hd := d.isLt
  have e1 : ((1#16 <<< k) - 1#16).toNat = 2 ^ k - 1 := by
    rw [BitVec.toNat_sub, BitVec.toNat_shiftLeft]
    have : (1#16).toNat <<< k % 2 ^ 16 = 2 ^ k := by
      rw [BitVec.toNat_ofNat, Nat.shiftLeft_eq]
      norm_num
      omega
    rw [this]
    have h1 : (1#16).toNat = 1 := rfl
    rw [h1]; omega
  have e2 : (d.setWidth 16 <<< k).toNat = d.toNat <<< k := by
    rw [BitVec.toNat_shiftLeft, BitVec.toNat_setWidth_of_le (by omega), Nat.mod_eq_of_lt]
    rw [Nat.shiftLeft_eq]
    calc d.toNat * 2 ^ k ≤ d.toNat * 2 ^ 7 := Nat.mul_le_mul_left _ hp
      _ < 2 ^ 16 := by omega
  unfold delimitedLastBytes
  have e3 : (1 : BitVec 16) = 1#16 := rfl
  rw [BitVec.toNat_or, BitVec.toNat_and, e3, e1, e2, BitVec.toNat_setWidth_of_le (by omega),
    Nat.and_two_pow_sub_one_eq_mod, Nat.or_comm,
    ← Nat.shiftLeft_add_eq_or_of_lt (Nat.mod_lt _ hpos), Nat.shiftLeft_eq]
  ring

theorem toNat_take_ofByte (b : Byte) (k : Nat) (hk : k ≤ 8) :
    Bits.toNat ((Bits.ofByte b).take k) = b.toNat % 2 ^ k := by
  have h := Bits.toNat_append ((Bits.ofByte b).take k) ((Bits.ofByte b).drop k)
  rw [List.take_append_drop, Bits.toNat_ofByte, List.length_take, Bits.length_ofByte,
    Nat.min_eq_left hk] at h
  have hlt := Bits.toNat_lt ((Bits.ofByte b).take k)
  rw [List.length_take, Bits.length_ofByte, Nat.min_eq_left hk] at hlt
  rw [h, Nat.add_mul_mod_self_left, Nat.mod_eq_of_lt hlt]

theorem lo_toNat (w : BitVec 16) : ((w &&& 0xFF).setWidth 8).toNat = w.toNat % 256 := by
  rw [BitVec.toNat_setWidth, BitVec.toNat_and]
  have : (0xFF : BitVec 16).toNat = 2 ^ 8 - 1 := rfl
  rw [this, Nat.and_two_pow_sub_one_eq_mod]
  omega

theorem hi_toNat (w : BitVec 16) : (((w >>> 8) &&& 0xFF).setWidth 8).toNat = w.toNat / 256 := by
  rw [BitVec.toNat_setWidth, BitVec.toNat_and, BitVec.toNat_ushiftRight]
  have : (0xFF : BitVec 16).toNat = 2 ^ 8 - 1 := rfl
  rw [this, Nat.and_two_pow_sub_one_eq_mod, Nat.shiftRight_eq_div_pow]
  have := w.isLt
  omega

theorem hi_zero_iff (w : BitVec 16) : w &&& 0xFF00 = 0 ↔ w.toNat < 256 := by
  constructor
  · intro h
    have h8 : ∀ i, 8 ≤ i → w.getLsbD i = false := by
      intro i hi
      by_cases h16 : i < 16
      · have := congrArg (fun v => BitVec.getLsbD v i) h
        simp only [BitVec.getLsbD_and] at this
        have e : (0xFF00 : BitVec 16).getLsbD i = true := by
          have : i = 8 ∨ i = 9 ∨ i = 10 ∨ i = 11 ∨ i = 12 ∨ i = 13 ∨ i = 14 ∨ i = 15 := by omega
          rcases this with rfl | rfl | rfl | rfl | rfl | rfl | rfl | rfl <;> rfl
        rw [e] at this
        simpa using this
      · exact BitVec.getLsbD_of_ge _ _ (by omega)
    exact Nat.lt_pow_two_of_testBit _ (fun i hi => h8 i hi)
  · intro h
    apply BitVec.eq_of_getLsbD_eq
    intro i hi
    rw [BitVec.getLsbD_and]
    by_cases h8 : 8 ≤ i
    · have : w.getLsbD i = false :=
        Nat.testBit_lt_two_pow (Nat.lt_of_lt_of_le h (Nat.pow_le_pow_right (by omega) h8 : 2 ^ 8 ≤ 2 ^ i))
      simp [this]
    · have : i = 0 ∨ i = 1 ∨ i = 2 ∨ i = 3 ∨ i = 4 ∨ i = 5 ∨ i = 6 ∨ i = 7 := by omega
      rcases this with rfl | rfl | rfl | rfl | rfl | rfl | rfl | rfl <;> simp

/-- The two cases of KeccakHash.c:49-57: the `k` last message bits followed by the suffix bits `l` either fit
in the new suffix, or fill one byte and leave the rest in the new suffix. -/
theorem delimitedLastBytes_spec (b d : Byte) (k : Nat) (hk : k < 8) (l : Bits)
    (hd : Bits.DelimitedBy l d) :
    (delimitedLastBytes b d k &&& 0xFF00 = 0 ∧
      Bits.DelimitedBy ((Bits.ofByte b).take k ++ l)
        ((delimitedLastBytes b d k &&& 0xFF).setWidth 8)) ∨
    (¬ delimitedLastBytes b d k &&& 0xFF00 = 0 ∧
      ∃ l', (Bits.ofByte b).take k ++ l =
        Bits.ofByte ((delimitedLastBytes b d k &&& 0xFF).setWidth 8) ++ l' ∧
        Bits.DelimitedBy l' (((delimitedLastBytes b d k >>> 8) &&& 0xFF).setWidth 8)) := by
  have hw := delimitedLastBytes_toNat b d k hk
  generalize delimitedLastBytes b d k = w at *
  have hlen : ((Bits.ofByte b).take k).length = k := by simp; omega
  have hval : w.toNat = Bits.toNat ((Bits.ofByte b).take k ++ l) + 2 ^ (k + l.length) := by
    rw [hw, Bits.toNat_append, hlen, toNat_take_ofByte b k (by omega), hd.2, Nat.pow_add]
    ring
  generalize hq : (Bits.ofByte b).take k ++ l = q at *
  have hql : q.length = k + l.length := by rw [← hq, List.length_append, hlen]
  have hqlt := Bits.toNat_lt q
  rw [← hql] at hval
  have hl7 := hd.1
  rw [hi_zero_iff]
  by_cases h : q.length ≤ 7
  · left
    have h256 : w.toNat < 256 := by
      have : 2 ^ q.length ≤ 2 ^ 7 := Nat.pow_le_pow_right (by omega) h
      omega
    refine ⟨h256, h, ?_⟩
    rw [lo_toNat, Nat.mod_eq_of_lt h256, hval]
  · right
    have hge : ¬ w.toNat < 256 := by
      have : 2 ^ 8 ≤ 2 ^ q.length := Nat.pow_le_pow_right (by omega) (by omega)
      omega
    have hsplit := Bits.toNat_append (q.take 8) (q.drop 8)
    have ht8 : (q.take 8).length = 8 := by simp; omega
    rw [List.take_append_drop, ht8] at hsplit
    have hlt8 := Bits.toNat_lt (q.take 8)
    rw [ht8] at hlt8
    have hpow : 2 ^ q.length = 256 * 2 ^ (q.length - 8) := by
      have : q.length = 8 + (q.length - 8) := by omega
      conv_lhs => rw [this, Nat.pow_add]
    refine ⟨hge, q.drop 8, ?_, ?_, ?_⟩
    · conv_lhs => rw [← List.take_append_drop 8 q]
      congr 1
      rw [← Bits.ofByte_ofNat (q.take 8) ht8]
      congr 1
      apply BitVec.eq_of_toNat_eq
      rw [lo_toNat, BitVec.toNat_ofNat, hval, hsplit, hpow]
      omega
    · simp; omega
    · rw [hi_toNat, hval, hsplit, hpow]
      simp only [List.length_drop]
      omega

variable {P : SnP}

/-- A hash instance in canonical form: `m` absorbed, suffix `d`. -/
def habsd (P : SnP) (r : Nat) (m : Bytes) (hlen : Nat) (d : Byte) : HashInst :=
  ⟨Sponge.absd P r m, hlen, d⟩

theorem hashUpdate_eq (hP : P.Valid) {r : Nat} (hr : 0 < r) (hrw : r ≤ P.width) (m : Bytes) (hlen : Nat)
    (l : Bits) (d : Byte) (hd : Bits.DelimitedBy l d) (data : Bytes) (n : Nat) (hn : n ≤ 8 * data.length) :
    ∃ m' l' d', hashUpdate P (habsd P r m hlen d) data n = some (0, habsd P r m' hlen d') ∧
      Bits.DelimitedBy l' d' ∧
      Bits.ofBytes m' ++ l' = Bits.ofBytes m ++ (Bits.ofBytes data).take n ++ l ∧
      (n % 8 = 0 → d' = d ∧ l' = l ∧ m' = m ++ data.take (n / 8)) := by
  have hle : n / 8 ≤ data.length := by omega
  have hn8 : n = 8 * (n / 8) + n % 8 := by omega
  unfold hashUpdate
  simp only [SnP.readBuf, hle, if_true, Option.bind_eq_bind, Option.bind_some, habsd,
    Sponge.absorb_absd hP hr hrw]
  by_cases h8 : n % 8 = 0
  · rw [if_pos h8]
    refine ⟨_, l, d, rfl, hd, ?_, fun _ => ⟨rfl, rfl, rfl⟩⟩
    rw [Bits.ofBytes_append, ← Bits.take_ofBytes]
    congr 3; omega
  · rw [if_neg h8]
    have hlt : n / 8 < data.length := by omega
    rw [List.getElem?_eq_getElem hlt]
    simp only [Option.bind_some]
    have htake : (Bits.ofBytes data).take n =
        Bits.ofBytes (data.take (n / 8)) ++ (Bits.ofByte (data[n / 8])).take (n % 8) := by
      conv_lhs => rw [hn8, List.take_add, Bits.take_ofBytes, Bits.drop_ofBytes]
      congr 1
      rw [List.drop_eq_getElem_cons hlt, Bits.ofBytes_cons, List.take_append_of_le_length (by simp; omega)]
    rcases delimitedLastBytes_spec (data[n / 8]) d (n % 8) (by omega) l hd with ⟨h1, h2⟩ | ⟨h1, l', h2, h3⟩
    · simp only [h1, if_true]
      refine ⟨_, _, _, rfl, h2, ?_, fun h => absurd h h8⟩
      rw [htake, Bits.ofBytes_append]
      simp only [List.append_assoc]
    · simp only [h1, if_false]
      refine ⟨_, l', _, rfl, h3, ?_, fun h => absurd h h8⟩
      rw [htake, Bits.ofBytes_append, Bits.ofBytes_append]
      simp only [List.append_assoc, h2, Bits.ofBytes_cons, Bits.ofBytes_nil, List.append_nil,
        List.nil_append]

end KeccakHash
