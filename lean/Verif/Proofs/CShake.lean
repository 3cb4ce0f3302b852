import Verif.Proofs.Encode
import Verif.Proofs.KeccakHash

/-!
Helper lemmas for cSHAKE, KMAC and TupleHash.
-/

namespace Bits

/-- The bits of `buf` from `n` up to the end of the byte are zero. -/
def CleanAt (buf : Bytes) (n : Nat) : Prop :=
  ∀ b ∈ ((ofBytes buf).take (8 * ((n + 7) / 8))).drop n, b = false

theorem CleanAt.take {buf : Bytes} {n : Nat} (h : CleanAt buf n) (hn : n ≤ 8 * buf.length) :
    ofBytes (buf.take ((n + 7) / 8)) =
      (ofBytes buf).take n ++ List.replicate (8 * ((n + 7) / 8) - n) false := by
  rw [← take_ofBytes]
  have h1 : ((ofBytes buf).take (8 * ((n + 7) / 8))).take n = (ofBytes buf).take n := by
    rw [List.take_take]; congr 1; omega
  conv_lhs => rw [← List.take_append_drop n ((ofBytes buf).take (8 * ((n + 7) / 8))), h1]
  congr 1
  rw [List.eq_replicate_iff]
  exact ⟨by simp; omega, h⟩

theorem cleanAt_of_aligned (buf : Bytes) (n : Nat) (h : n % 8 = 0) : CleanAt buf n := by
  intro b hb
  have : 8 * ((n + 7) / 8) = n := by omega
  rw [this] at hb
  simp at hb

end Bits

namespace Spec

theorem length_enc8 (i : Nat) : (enc8 i).length = 8 := by simp [enc8]

theorem length_left_encode (x : Nat) : (left_encode x).length = 8 * (1 + (base256 x).length) := by
  unfold left_encode
  rw [List.length_append, length_enc8, Sponge.flatMap_length_ge _ _ 8 (fun _ _ => length_enc8 _)]
  omega

end Spec

namespace SP800185
open Spec

/-- Byte padding of a bit string stored in a clean buffer. -/
theorem padTo8_eq (A buf : Bytes) (n : Nat) (hn : n ≤ 8 * buf.length) (hc : Bits.CleanAt buf n) :
    padTo 8 (Bits.ofBytes A ++ (Bits.ofBytes buf).take n) = Bits.ofBytes (A ++ buf.take ((n + 7) / 8)) := by
  unfold padTo
  rw [Bits.ofBytes_append, hc.take hn, List.append_assoc]
  congr 3
  simp only [List.length_append, Bits.length_ofBytes, List.length_take]
  omega

/-- Padding to the rate. -/
theorem padToRate_eq (A : Bytes) (r : Nat) (hr : 0 < r) :
    padTo (8 * r) (Bits.ofBytes A) = Bits.ofBytes (A ++ Bytes.zeros ((r - A.length % r) % r)) := by
  unfold padTo
  rw [Bits.ofBytes_append, Bits.ofBytes_zeros, Bits.length_ofBytes]
  congr 2
  rw [Nat.mul_mod_mul_left, ← Nat.mul_sub, Nat.mul_mod_mul_left]

theorem padToRate_len (A : Bytes) (r : Nat) (hr : 0 < r) :
    (A ++ Bytes.zeros ((r - A.length % r) % r)).length % r = 0 := by
  rw [List.length_append, Bytes.length_zeros]
  generalize A.length = a
  have := Nat.mod_lt a hr
  by_cases h : a % r = 0
  · simp [h]
  · rw [Nat.mod_eq_of_lt (show r - a % r < r by omega)]
    have hd := Nat.div_add_mod a r
    have e : a + (r - a % r) = r * (a / r + 1) := by rw [Nat.mul_add]; omega
    rw [e, Nat.mul_mod_right]

variable {P : SnP}

theorem rateBytes_eq {sec : Nat} (hsec : sec = 128 ∨ sec = 256) :
    0 < rateBytes sec ∧ rateBytes sec ≤ 200 ∧ 8 * rateBytes sec = 1600 - 2 * sec ∧
      rateBytes sec < 2 ^ 64 := by
  rcases hsec with rfl | rfl <;> decide

theorem spongeInit_eq (hw : P.width = 200) {sec : Nat} (hsec : sec = 128 ∨ sec = 256) (mem : SpongeInst) :
    spongeInit P sec mem = (0, Sponge.absd P (rateBytes sec) []) := by
  unfold spongeInit
  apply Sponge.spongeInit_absd
  · unfold Sponge.badParams
    rw [hw]
    rcases hsec with rfl | rfl <;> decide
  · rcases hsec with rfl | rfl <;> decide

theorem absorbSeq_eq (hP : P.Valid) {r : Nat} (hr : 0 < r) (hrw : r ≤ P.width) (xs : List Bytes) :
    ∀ m : Bytes, absorbSeq P (Sponge.absd P r m) xs = some (0, Sponge.absd P r (m ++ xs.flatten)) := by
  induction xs with
  | nil => intro m; simp [absorbSeq]
  | cons x xs ih =>
    intro m
    simp only [absorbSeq, Sponge.absorb_absd hP hr hrw, Option.bind_eq_bind, Option.bind_some, ne_eq,
      not_true_eq_false, if_false, ih, List.flatten_cons, List.append_assoc]

theorem zeroPad_eq (hP : P.Valid) (hw : P.width = 200) {sec : Nat} (hsec : sec = 128 ∨ sec = 256)
    (m : Bytes) :
    zeroPad P sec (Sponge.absd P (rateBytes sec) m) =
      some (0, Sponge.absd P (rateBytes sec)
        (m ++ Bytes.zeros ((rateBytes sec - m.length % rateBytes sec) % rateBytes sec))) := by
  obtain ⟨hr, hr2, -, -⟩ := rateBytes_eq hsec
  have hrw : rateBytes sec ≤ P.width := by omega
  unfold zeroPad
  rw [Sponge.absd_idx hr]
  have hlt := Nat.mod_lt m.length hr
  generalize rateBytes sec = r at *
  by_cases h0 : m.length % r = 0
  · simp [h0, Bytes.zeros]
  · simp only [ne_eq, h0, not_false_eq_true, if_true]
    have e : r - 1 = m.length % r + (r - 1 - m.length % r) := by omega
    have hk := Sponge.absorb_skip (P := P) hr m (r - 1 - m.length % r) (by omega)
    rw [← e] at hk
    rw [hk, Sponge.absorb_absd hP hr hrw, List.append_assoc]
    congr 4
    have e2 : (r - m.length % r) % r = r - 1 - m.length % r + 1 := by
      rw [Nat.mod_eq_of_lt (by omega)]; omega
    rw [e2]
    simp [Bytes.zeros, List.replicate_succ']

theorem bytesFor_eq {x : Nat} (h : x + 7 < 2 ^ 64) : bytesFor x = (x + 7) / 8 := by
  unfold bytesFor; rw [Nat.mod_eq_of_lt h]

/-- A cSHAKE instance in canonical form: `m` absorbed, byte aligned. -/
def cabsd (P : SnP) (r L : Nat) (m : Bytes) (e : Bool) : CShakeInst :=
  { sponge := Sponge.absd P r m, fixedOutputLength := L, lastByteBitLen := 0, lastByteValue := 0,
    emptyNameCustom := e, phase := .absorbing }

/-- The bytes absorbed by `cSHAKE_Initialize`. -/
def cPrefix (r : Nat) (name : Bytes) (nb : Nat) (cust : Bytes) (cb : Nat) : Bytes :=
  let A := leftEncode (BitVec.ofNat 64 r) ++ (leftEncode (BitVec.ofNat 64 nb) ++ (name.take (nb / 8) ++
    (leftEncode (BitVec.ofNat 64 cb) ++ cust.take ((cb + 7) / 8))))
  A ++ Bytes.zeros ((r - A.length % r) % r)

theorem cPrefix_spec {r : Nat} (hr : 0 < r) (hr64 : r < 2 ^ 64) (name : Bytes) (nb : Nat) (cust : Bytes)
    (cb : Nat) (hnb : nb % 8 = 0) (hn : nb ≤ 8 * name.length) (hn64 : nb < 2 ^ 64)
    (hc : cb ≤ 8 * cust.length) (hc64 : cb + 7 < 2 ^ 64) (hclean : Bits.CleanAt cust cb) :
    Bits.ofBytes (cPrefix r name nb cust cb) =
      bytepad (encode_string ((Bits.ofBytes name).take nb) ++ encode_string ((Bits.ofBytes cust).take cb)) r := by
  unfold cPrefix
  simp only
  rw [← padToRate_eq _ r hr]
  unfold bytepad
  congr 1
  have e : left_encode r ++ (encode_string ((Bits.ofBytes name).take nb) ++
      encode_string ((Bits.ofBytes cust).take cb)) =
      Bits.ofBytes (leftEncode (BitVec.ofNat 64 r) ++ (leftEncode (BitVec.ofNat 64 nb) ++
        (name.take (nb / 8) ++ leftEncode (BitVec.ofNat 64 cb)))) ++ (Bits.ofBytes cust).take cb := by
    unfold encode_string
    simp only [Bits.ofBytes_append, leftEncode_nat hr64, leftEncode_nat hn64,
      leftEncode_nat (show cb < 2 ^ 64 by omega), List.append_assoc, ← Bits.take_ofBytes]
    have e1 : ((Bits.ofBytes name).take nb).length = nb := by simp; omega
    have e2 : ((Bits.ofBytes cust).take cb).length = cb := by simp; omega
    have e3 : 8 * (nb / 8) = nb := by omega
    rw [e1, e2, e3]
  rw [e, padTo8_eq _ _ _ hc hclean]
  simp only [List.append_assoc]

theorem cInit_eq (hP : P.Valid) (hw : P.width = 200) {sec : Nat} (hsec : sec = 128 ∨ sec = 256)
    (mem : CShakeInst) (L : Nat) (name : Bytes) (nb : Nat) (cust : Bytes)
    (cb : Nat) (hnb : nb % 8 = 0) (hn : nb ≤ 8 * name.length)
    (hc : cb ≤ 8 * cust.length) (hc64 : cb + 7 < 2 ^ 64) :
    cInit P sec mem L name nb cust cb = some (0,
      if nb = 0 ∧ cb = 0 then cabsd P (rateBytes sec) L [] true
      else cabsd P (rateBytes sec) L (cPrefix (rateBytes sec) name nb cust cb) false) := by
  obtain ⟨hr, hr2, -, hr64⟩ := rateBytes_eq hsec
  have hrw : rateBytes sec ≤ P.width := by omega
  unfold cInit
  simp only [hnb, ne_eq, not_true_eq_false, if_false, spongeInit_eq hw hsec]
  by_cases h0 : nb = 0 ∧ cb = 0
  · simp [h0, cabsd]
  · simp only [h0, if_false]
    have h1 : nb / 8 ≤ name.length := by omega
    have h2 : (cb + 7) / 8 ≤ cust.length := by omega
    simp only [SnP.readBuf, h1, if_true, bytesFor_eq hc64, h2, Option.bind_eq_bind, Option.bind_some,
      absorbSeq_eq hP hr hrw, not_true_eq_false, if_false, zeroPad_eq hP hw hsec]
    simp [cabsd, cPrefix]

/-! ### Update -/

theorem cUpdate_aligned (hP : P.Valid) {r : Nat} (hr : 0 < r) (hrw : r ≤ P.width) (L : Nat) (m : Bytes)
    (e : Bool) (data : Bytes) (n : Nat) (h8 : n % 8 = 0) (hn : n ≤ 8 * data.length) :
    cUpdate P (cabsd P r L m e) data n = some (0, cabsd P r L (m ++ data.take (n / 8)) e) := by
  have h1 : n / 8 ≤ data.length := by omega
  simp [cUpdate, cabsd, h8, SnP.readBuf, h1, Sponge.absorb_absd hP hr hrw]

/-- The suffix bits: `00` for cSHAKE, `1111` for SHAKE. -/
def sufBits (e : Bool) : Bits := if e then [true, true, true, true] else [false, false]

def sufByte (e : Bool) : Byte := if e then 0x1F else 0x04

theorem suf_delim (e : Bool) : Bits.DelimitedBy (sufBits e) (sufByte e) := by
  cases e <;> decide

theorem mask_eq (b : Byte) (k : Nat) (hk : k < 8) :
    (b &&& ((1#8 <<< k) - 1)).setWidth 16 = b.setWidth 16 &&& ((1#16 <<< k) - 1) := by
  have h : ∀ b : BitVec 8, ∀ k : Fin 8,
    (b &&& ((1#8 <<< k.1) - 1)).setWidth 16 = b.setWidth 16 &&& ((1#16 <<< k.1) - 1) := by decide +kernel
  exact h b ⟨k, hk⟩

theorem toByte_lo (w : BitVec 16) : w.setWidth 8 = (w &&& 0xFF).setWidth 8 := by
  apply BitVec.eq_of_toNat_eq
  rw [KeccakHash.lo_toNat, BitVec.toNat_setWidth]

theorem toByte_hi (w : BitVec 16) : (w >>> 8).setWidth 8 = ((w >>> 8) &&& 0xFF).setWidth 8 := by
  rw [toByte_lo]

theorem hi_iff (w : BitVec 16) : w >>> 8 = 0 ↔ w &&& 0xFF00 = 0 := by
  rw [KeccakHash.hi_zero_iff, ← BitVec.toNat_inj, BitVec.toNat_ushiftRight, Nat.shiftRight_eq_div_pow]
  simp

/-- The state of an instance after the last update: what `cSHAKE_Final` will do. -/
structure Ready (P : SnP) (r L : Nat) (e : Bool) (i : CShakeInst) (msg : Bits) where
  m : Bytes
  d : Byte
  l : Bits
  delim : Bits.DelimitedBy l d
  bits : Bits.ofBytes m ++ l = msg ++ sufBits e
  phase : i.phase = .absorbing
  len : i.fixedOutputLength = L
  fin : cFinal P i = cSwitch P { i with sponge := Sponge.sqd P r m d 0, phase := .squeezing }

theorem cUpdate_ready (hP : P.Valid) {r : Nat} (hr : 0 < r) (hrw : r ≤ P.width) (L : Nat) (m : Bytes)
    (e : Bool) (data : Bytes) (n : Nat) (hn : n ≤ 8 * data.length) :
    ∃ i, cUpdate P (cabsd P r L m e) data n = some (0, i) ∧
      Nonempty (Ready P r L e i (Bits.ofBytes m ++ (Bits.ofBytes data).take n)) := by
  have h1 : n / 8 ≤ data.length := by omega
  have hn8 : n = 8 * (n / 8) + n % 8 := by omega
  by_cases h8 : n % 8 = 0
  · refine ⟨_, cUpdate_aligned hP hr hrw L m e data n h8 hn, ⟨⟨m ++ data.take (n / 8), sufByte e, sufBits e,
      suf_delim e, ?_, rfl, rfl, ?_⟩⟩⟩
    · rw [Bits.ofBytes_append, ← Bits.take_ofBytes]
      congr 3; omega
    · have hb : sufByte e ≠ 0 := (suf_delim e).ne_zero
      cases e
      · simp [cFinal, cabsd, cLastBytes, cFinish, Sponge.lastFewBits_absd hP hr hrw, sufByte]
      · simp [cFinal, cabsd, cLastBytes, cFinish, Sponge.lastFewBits_absd hP hr hrw, sufByte]
  · have hlt : n / 8 < data.length := by omega
    refine ⟨⟨Sponge.absd P r (m ++ data.take (n / 8)), L, n % 8,
      data[n / 8] &&& ((1#8 <<< (n % 8)) - 1), e, .absorbing⟩, ?_, ?_⟩
    · simp [cUpdate, cabsd, h8, SnP.readBuf, h1, Sponge.absorb_absd hP hr hrw,
        List.getElem?_eq_getElem hlt]
    · have htake : (Bits.ofBytes data).take n =
          Bits.ofBytes (data.take (n / 8)) ++ (Bits.ofByte (data[n / 8])).take (n % 8) := by
        conv_lhs => rw [hn8, List.take_add, Bits.take_ofBytes, Bits.drop_ofBytes]
        congr 1
        rw [List.drop_eq_getElem_cons hlt, Bits.ofBytes_cons, List.take_append_of_le_length (by simp; omega)]
      have hword : cLastBytes ⟨Sponge.absd P r (m ++ data.take (n / 8)), L, n % 8,
          data[n / 8] &&& ((1#8 <<< (n % 8)) - 1), e, .absorbing⟩ =
          KeccakHash.delimitedLastBytes (data[n / 8]) (sufByte e) (n % 8) := by
        unfold KeccakHash.delimitedLastBytes cLastBytes
        simp only
        rw [mask_eq _ _ (by omega)]
        cases e <;> rfl
      rcases KeccakHash.delimitedLastBytes_spec (data[n / 8]) (sufByte e) (n % 8) (by omega) _
        (suf_delim e) with ⟨g1, g2⟩ | ⟨g1, l', g2, g3⟩
      · refine ⟨⟨m ++ data.take (n / 8), _, _, g2, ?_, rfl, rfl, ?_⟩⟩
        · rw [htake, Bits.ofBytes_append]; simp only [List.append_assoc]
        · unfold cFinal
          rw [hword]
          simp only [ne_eq, not_true_eq_false, if_false, (hi_iff _).2 g1, if_true, cFinish]
          rw [toByte_lo, Sponge.lastFewBits_absd hP hr hrw _ _ g2.ne_zero]
          simp
      · refine ⟨⟨m ++ data.take (n / 8) ++
            [((KeccakHash.delimitedLastBytes (data[n / 8]) (sufByte e) (n % 8)) &&& 0xFF).setWidth 8],
            _, l', g3, ?_, rfl, rfl, ?_⟩⟩
        · rw [htake, Bits.ofBytes_append, Bits.ofBytes_append]
          simp only [List.append_assoc, g2, Bits.ofBytes_cons, Bits.ofBytes_nil, List.append_nil,
            List.nil_append]
        · unfold cFinal
          rw [hword]
          have g1' := (hi_iff _).not.2 g1
          simp only [ne_eq, not_true_eq_false, g1', if_false, Sponge.absorb_absd hP hr hrw,
            Option.bind_eq_bind, Option.bind_some, cFinish]
          rw [toByte_hi, toByte_lo (KeccakHash.delimitedLastBytes _ _ _), Sponge.lastFewBits_absd hP hr hrw _ _ g3.ne_zero]
          simp

/-! ### Squeezing -/

/-- `o` is the byte string representing the bit string `b`: bits in order, unused bits of the last byte
zero. -/
def Represents (o : Bytes) (b : Bits) : Prop :=
  Bits.ofBytes o = b ++ List.replicate (8 * ((b.length + 7) / 8) - b.length) false

theorem maskByte_bits (b : Byte) (k : Nat) (hk : k < 8) :
    Bits.ofByte (b &&& ((1#8 <<< k) - 1)) = (Bits.ofByte b).take k ++ List.replicate (8 - k) false := by
  have h : ∀ b : BitVec 8, ∀ k : Fin 8, Bits.ofByte (b &&& ((1#8 <<< k.1) - 1)) =
    (Bits.ofByte b).take k.1 ++ List.replicate (8 - k.1) false := by decide +kernel
  exact h b ⟨k, hk⟩

theorem maskLast_eq (o : Bytes) (n : Nat) (ho : o.length = (n + 7) / 8) (h8 : n % 8 ≠ 0) :
    ∃ o', maskLast o n = some o' ∧
      Bits.ofBytes o' = (Bits.ofBytes o).take n ++ List.replicate (8 * ((n + 7) / 8) - n) false := by
  have hlt : n / 8 < o.length := by omega
  unfold maskLast
  rw [List.getElem?_eq_getElem hlt]
  refine ⟨_, rfl, ?_⟩
  have hn8 : n = 8 * (n / 8) + n % 8 := by omega
  have hend : o.drop (n / 8 + 1) = [] := List.drop_eq_nil_of_le (by omega)
  have ho' : o = o.take (n / 8) ++ [o[n / 8]] := by
    conv_lhs => rw [← List.take_append_drop (n / 8) o, List.drop_eq_getElem_cons hlt, hend]
  have hset : o.set (n / 8) (o[n / 8] &&& ((1#8 <<< (n % 8)) - 1)) =
      o.take (n / 8) ++ [o[n / 8] &&& ((1#8 <<< (n % 8)) - 1)] := by
    rw [List.set_eq_take_append_cons_drop, if_pos hlt, hend]
  rw [hset, Bits.ofBytes_append, Bits.ofBytes_cons, Bits.ofBytes_nil, List.append_nil,
    maskByte_bits _ _ (by omega), ← List.append_assoc]
  have htake : (Bits.ofBytes o).take n =
      Bits.ofBytes (o.take (n / 8)) ++ (Bits.ofByte (o[n / 8])).take (n % 8) := by
    conv_lhs => rw [hn8, List.take_add, Bits.take_ofBytes, Bits.drop_ofBytes]
    congr 1
    rw [List.drop_eq_getElem_cons hlt, Bits.ofBytes_cons, List.take_append_of_le_length (by simp; omega)]
  rw [htake]
  congr 2; omega

/-- A squeezing cSHAKE instance. -/
def csqd (P : SnP) (r : Nat) (m : Bytes) (d : Byte) (k : Nat) (i : CShakeInst) : CShakeInst :=
  { i with sponge := Sponge.sqd P r m d k, phase := .squeezing }

theorem cSqueeze_aligned (hP : P.Valid) {r : Nat} (hr : 0 < r) (hrw : r ≤ P.width) (m : Bytes) (d : Byte)
    (k : Nat) (i : CShakeInst) (n : Nat) (h8 : n % 8 = 0) (hn : n + 7 < 2 ^ 64) :
    cSqueeze P (csqd P r m d k i) n =
      some (0, csqd P r m d (k + n / 8) i, (Sponge.out P r m d (k + n / 8)).drop k) := by
  have e : (n + 7) / 8 = n / 8 := by omega
  simp [cSqueeze, csqd, h8, bytesFor_eq hn, e, Sponge.squeeze_sqd hP hr hrw]

theorem cSqueeze_partial (hP : P.Valid) {r : Nat} (hr : 0 < r) (hrw : r ≤ P.width) (m : Bytes) (d : Byte)
    (k : Nat) (i : CShakeInst) (n : Nat) (h8 : n % 8 ≠ 0) (hn : n + 7 < 2 ^ 64) :
    ∃ o, cSqueeze P (csqd P r m d k i) n =
      some (0, { csqd P r m d (k + (n + 7) / 8) i with phase := .final }, o) ∧
      Bits.ofBytes o = (Bits.ofBytes ((Sponge.out P r m d (k + (n + 7) / 8)).drop k)).take n ++
        List.replicate (8 * ((n + 7) / 8) - n) false := by
  obtain ⟨o, h1, h2⟩ := maskLast_eq ((Sponge.out P r m d (k + (n + 7) / 8)).drop k) n (by simp) h8
  refine ⟨o, ?_, h2⟩
  simp [cSqueeze, csqd, h8, bytesFor_eq hn, Sponge.squeeze_sqd hP hr hrw, h1]

/-- Any squeeze: code 0, output bits. -/
theorem cSqueeze_any (hP : P.Valid) {r : Nat} (hr : 0 < r) (hrw : r ≤ P.width) (m : Bytes) (d : Byte)
    (k : Nat) (i : CShakeInst) (n : Nat) (hn : n + 7 < 2 ^ 64) :
    ∃ j o, cSqueeze P (csqd P r m d k i) n = some (0, j, o) ∧
      (n % 8 = 0 → j = csqd P r m d (k + n / 8) i) ∧ (n % 8 ≠ 0 → j.phase = .final) ∧
      Bits.ofBytes o = ((Bits.ofBytes (Sponge.out P r m d (k + (n + 7) / 8))).drop (8 * k)).take n ++
        List.replicate (8 * ((n + 7) / 8) - n) false := by
  by_cases h8 : n % 8 = 0
  · refine ⟨_, _, cSqueeze_aligned hP hr hrw m d k i n h8 hn, fun _ => rfl, fun h => absurd h8 h, ?_⟩
    have e : (n + 7) / 8 = n / 8 := by omega
    have e2 : 8 * (n / 8) - n = 0 := by omega
    rw [e, e2, List.replicate_zero, List.append_nil, Bits.drop_ofBytes, List.take_of_length_le]
    simp; omega
  · obtain ⟨o, h1, h2⟩ := cSqueeze_partial hP hr hrw m d k i n h8 hn
    exact ⟨_, o, h1, fun h => absurd h h8, fun _ => rfl, by rw [h2, Bits.drop_ofBytes]⟩

end SP800185
