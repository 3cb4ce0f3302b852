import Verif.Proofs.Avr8

/-!
# C72: the functions on bytes in the AVR8 assembly

The state, the data, the input and the output are buffers in one memory, at any addresses.  `size` is 200 for Keccak-p[1600] and 48 for Xoodoo.  The hypothesis on buffers
that overlap is that of `Spec.Avr8.Ahead`, which allows `ExtractAndAddBytes` in place.  Each theorem is about the program with one loop on bytes (`compact`) and the
program with a loop on eight bytes before it (`fast`).
-/

namespace Avr8

open Spec.Avr8 (In Ahead bytesAt written)

/-- The two forms of the loops. -/
inductive Form : ((Rg → Option Rg) → Byte → Rg → Option Rg) → Prop
  | compact : Form compact
  | fast : Form fast

theorem Form.eq {run} (h : Form run) (body : Rg → Option Rg) (r : Byte) (s : Rg) : run body r s = iter body r.toNat s := by
  cases h
  · exact compact_eq r s
  · exact fast_eq r s

theorem toNat_low {r : BitVec 16} (h : r.toNat < 256) : (r.setWidth 8).toNat = r.toNat := by
  rw [BitVec.toNat_setWidth]; omega

/-- The pointer to the part of a state from an offset on. -/
theorem part {state offset : BitVec 16} {size n : Nat} (hs : In state size) (h256 : size < 256) (h : offset.toNat + n ≤ size) (h1 : 0 < n) :
    addPtr state (offset.setWidth 8) = state + offset ∧ In (state + offset) n := by
  have h1 := hs.1
  have h2 := hs.2
  have e := toNat_low (r := offset) (by omega)
  have a : addPtr state (offset.setWidth 8) = state + offset := by
    rw [addPtr_eq (by omega), e, BitVec.ofNat_toNat, BitVec.setWidth_eq]
  have t : (state + offset).toNat = state.toNat + offset.toNat := by rw [BitVec.toNat_add]; omega
  exact ⟨a, by rw [t]; omega, by rw [t]; omega⟩

variable {run : (Rg → Option Rg) → Byte → Rg → Option Rg} {size : Nat}

/-- C72, `Initialize`: the state becomes all zero and nothing else changes, for 200 bytes in both programs for Keccak-p[1600] and for 48 bytes in that for Xoodoo. -/
theorem C72_initialize (m : Mem) (state : BitVec 16) :
    (In state 200 → initCompact m state = some (written m state (List.replicate 200 0))) ∧
    (In state 200 → initFast 25 m state = some (written m state (List.replicate 200 0))) ∧
    (In state 48 → initFast 6 m state = some (written m state (List.replicate 48 0))) := by
  refine ⟨fun h => ?_, fun h => ?_, fun h => ?_⟩
  · unfold initCompact
    rw [loop1_eq 256 200 _ (by decide) (by decide), show (200 : Byte).toNat = 200 from rfl, zeroOne_iter _ _ _ _ _ h]
    rfl
  · unfold initFast
    rw [loop1_eq 256 25 _ (by decide) (by decide), iter_eight, show 8 * (25 : Byte).toNat = 200 from rfl, zeroOne_iter _ _ _ _ _ h]
    rfl
  · unfold initFast
    rw [loop1_eq 256 6 _ (by decide) (by decide), iter_eight, show 8 * (6 : Byte).toNat = 48 from rfl, zeroOne_iter _ _ _ _ _ h]
    rfl

/-- C72, `AddByte`. -/
theorem C72_addByte (m : Mem) (state offset : BitVec 16) (data : Byte) (hs : In state size) (h256 : size < 256) (h : offset.toNat < size) :
    addByte m state data offset = some (written m (state + offset) [m (state + offset) ^^^ data]) := by
  obtain ⟨e, h1, h2⟩ := part (offset := offset) (n := 1) hs h256 (by omega) (by decide)
  have w := st_written m (d := state + offset) [m (state + offset) ^^^ data] ⟨h1, h2⟩ (i := 0) Nat.zero_lt_one
  rw [List.take_zero, written_nil, at_zero] at w
  unfold addByte
  dsimp only
  rw [e, ld, if_neg (by omega)]
  exact w

/-- C72, `AddBytes`: the data is added to the part of the state given by the offset and the length, and nothing else changes. -/
theorem C72_addBytes (hr : Form run) (m : Mem) (state data offset length : BitVec 16) (hs : In state size) (h256 : size < 256)
    (h : offset.toNat + length.toNat ≤ size) (hd : In data length.toNat) (hc : Ahead data (state + offset) length.toNat) :
    addBytes run m state data offset length =
      some (written m (state + offset) (List.zipWith (· ^^^ ·) (bytesAt m (state + offset) length.toNat) (bytesAt m data length.toNat))) := by
  unfold addBytes
  rw [hr.eq, toNat_low (by omega)]
  rcases Nat.eq_zero_or_pos length.toNat with h0 | h0
  · rw [h0]
    show some m = some (written m _ [])
    rw [written_nil]
  · obtain ⟨e, hp⟩ := part hs h256 h h0
    rw [e, addOne_iter m _ _ _ _ hp hd hc]
    rfl

/-- C72, `OverwriteBytes`. -/
theorem C72_overwriteBytes (hr : Form run) (m : Mem) (state data offset length : BitVec 16) (hs : In state size) (h256 : size < 256)
    (h : offset.toNat + length.toNat ≤ size) (hd : In data length.toNat) (hc : Ahead data (state + offset) length.toNat) :
    overwriteBytes run m state data offset length = some (written m (state + offset) (bytesAt m data length.toNat)) := by
  unfold overwriteBytes
  rw [hr.eq, toNat_low (by omega)]
  rcases Nat.eq_zero_or_pos length.toNat with h0 | h0
  · rw [h0]
    show some m = some (written m _ [])
    rw [written_nil]
  · obtain ⟨e, hp⟩ := part hs h256 h h0
    rw [e, overwriteOne_iter m _ _ _ _ hp hd hc]
    rfl

/-- C72, `OverwriteWithZeroes`, in both forms. -/
theorem C72_overwriteWithZeroes (m : Mem) (state byteCount : BitVec 16) (hs : In state size) (h256 : size < 256) (h : byteCount.toNat ≤ size) :
    zeroesCompact m state byteCount = some (written m state (List.replicate byteCount.toNat 0)) ∧
    zeroesFast m state byteCount = some (written m state (List.replicate byteCount.toNat 0)) := by
  have hz : In state byteCount.toNat := ⟨hs.1, by have := hs.2; omega⟩
  have e := toNat_low (r := byteCount) (by omega)
  refine ⟨?_, ?_⟩
  · unfold zeroesCompact
    rw [compact_eq, e, zeroOne_iter _ _ _ _ _ hz]
    rfl
  · have e1 : (byteCount.setWidth 8 >>> 1 >>> 1 >>> 1 : Byte).toNat = byteCount.toNat / 8 := by
      rw [BitVec.toNat_ushiftRight, BitVec.toNat_ushiftRight, BitVec.toNat_ushiftRight, e, ← Nat.shiftRight_add, ← Nat.shiftRight_add, Nat.shiftRight_eq_div_pow]
    have e2 : (byteCount.setWidth 8 &&& 7 : Byte).toNat = byteCount.toNat % 8 := by
      rw [BitVec.toNat_and, e]
      exact Nat.and_two_pow_sub_one_eq_mod byteCount.toNat 3
    unfold zeroesFast
    dsimp only
    rw [compact_eq, iter_eight, e1]
    show ((iter zeroOne _ _).bind fun s => (compact zeroOne _ s).bind fun s => some s.m) = _
    rw [show (fun s => (compact zeroOne (byteCount.setWidth 8 &&& 7) s).bind fun s => some s.m) =
      fun s => (iter zeroOne (byteCount.toNat % 8) s).bind fun s => some s.m from funext fun s => by rw [compact_eq, e2],
      ← Option.bind_assoc, ← iter_add, show 8 * (byteCount.toNat / 8) + byteCount.toNat % 8 = byteCount.toNat by omega, zeroOne_iter _ _ _ _ _ hz]
    rfl

/-- C72, `ExtractBytes`: the part of the state is written to the output, and nothing else changes. -/
theorem C72_extractBytes (hr : Form run) (m : Mem) (state data offset length : BitVec 16) (hs : In state size) (h256 : size < 256)
    (h : offset.toNat + length.toNat ≤ size) (hd : In data length.toNat) (hc : Ahead (state + offset) data length.toNat) :
    extractBytes run m state data offset length = some (written m data (bytesAt m (state + offset) length.toNat)) := by
  unfold extractBytes
  rw [hr.eq, toNat_low (by omega)]
  rcases Nat.eq_zero_or_pos length.toNat with h0 | h0
  · rw [h0]
    show some m = some (written m _ [])
    rw [written_nil]
  · obtain ⟨e, hp⟩ := part hs h256 h h0
    rw [e, extractOne_iter m _ _ _ _ hp hd hc]
    rfl

/-- C72, `ExtractAndAddBytes`; the output may be the input. -/
theorem C72_extractAndAddBytes (hr : Form run) (m : Mem) (state input output offset length : BitVec 16) (hs : In state size) (h256 : size < 256)
    (h : offset.toNat + length.toNat ≤ size) (hi : In input length.toNat) (ho : In output length.toNat)
    (hc : Ahead (state + offset) output length.toNat) (hc' : Ahead input output length.toNat) :
    extractAndAddBytes run m state input output offset length =
      some (written m output (List.zipWith (· ^^^ ·) (bytesAt m (state + offset) length.toNat) (bytesAt m input length.toNat))) := by
  unfold extractAndAddBytes
  have e := toNat_low (r := length) (by omega)
  rcases Nat.eq_zero_or_pos length.toNat with h0 | h0
  · rw [if_pos (BitVec.eq_of_toNat_eq (by rw [e, h0]; rfl)), h0]
    show some m = some (written m _ [])
    rw [written_nil]
  · rw [if_neg fun c => by rw [c] at e; change 0 = _ at e; omega, hr.eq, e]
    obtain ⟨e, hp⟩ := part hs h256 h h0
    rw [e, extractAddOne_iter m _ _ _ _ hp hi ho hc hc']
    rfl

/-- C72: with the bytes read back, the part of a state from `offset` on is replaced by what is written, and the other bytes of the state are as before. -/
theorem C72_state (m : Mem) (state offset : BitVec 16) (vs : Bytes) (hs : In state size) (h : offset.toNat + vs.length ≤ size) (h1 : 0 < vs.length) :
    bytesAt (written m (state + offset) vs) state size =
      (bytesAt m state size).take offset.toNat ++ vs ++ (bytesAt m state size).drop (offset.toNat + vs.length) := by
  have hs2 := hs.2
  have t : (state + offset).toNat = state.toNat + offset.toNat := by rw [BitVec.toNat_add]; omega
  have hl := length_bytesAt m state size
  refine List.ext_getElem? fun i => ?_
  by_cases hi : i < size
  · have g : ∀ m : Mem, (bytesAt m state size)[i]? = some (m (state + BitVec.ofNat 16 i)) := fun m => by
      rw [bytesAt, List.getElem?_map, List.getElem?_range hi]; rfl
    have e : (state + BitVec.ofNat 16 i).toNat = state.toNat + i := toNat_at (by omega)
    rw [g, written, t, e]
    by_cases ha : i < offset.toNat
    · rw [if_neg (by omega), List.append_assoc, List.getElem?_append_left (by rw [List.length_take]; omega), List.getElem?_take_of_lt ha, g]
    · by_cases hb : i < offset.toNat + vs.length
      · rw [if_pos (by omega), List.append_assoc, List.getElem?_append_right (by rw [List.length_take]; omega), List.length_take, hl,
          List.getElem?_append_left (by omega), show min offset.toNat size = offset.toNat by omega,
          show state.toNat + i - (state.toNat + offset.toNat) = i - offset.toNat by omega, List.getD_eq_getElem?_getD,
          List.getElem?_eq_getElem (by omega)]
        rfl
      · rw [if_neg (by omega), List.getElem?_append_right (by rw [List.length_append, List.length_take]; omega), List.length_append, List.length_take, hl,
          List.getElem?_drop, show offset.toNat + vs.length + (i - (min offset.toNat size + vs.length)) = i by omega, g]
  · rw [List.getElem?_eq_none (by rw [length_bytesAt]; omega), List.getElem?_eq_none (by
      rw [List.length_append, List.length_append, List.length_take, List.length_drop, hl]; omega)]

/-! ### Cases that meet the hypotheses -/

-- a state of Keccak-p[1600] at an address where the offset carries into the upper byte of the pointer; 150 bytes from offset 20
example : addBytes fast (fun a => a.setWidth 8) 0x2F0 0x400 20 150 = some (written (fun a => a.setWidth 8) 0x304
    (List.zipWith (· ^^^ ·) (bytesAt (fun a => a.setWidth 8) 0x304 150) (bytesAt (fun a => a.setWidth 8) 0x400 150))) :=
  C72_addBytes (size := 200) .fast _ 0x2F0 0x400 20 150 (by constructor <;> decide) (by decide) (by decide) (by constructor <;> decide) (.inl (by decide))

-- in place, for the whole state of Xoodoo
example : extractAndAddBytes compact (fun a => a.setWidth 8) 0x300 0x400 0x400 0 48 = some (written (fun a => a.setWidth 8) 0x400
    (List.zipWith (· ^^^ ·) (bytesAt (fun a => a.setWidth 8) 0x300 48) (bytesAt (fun a => a.setWidth 8) 0x400 48))) :=
  C72_extractAndAddBytes (size := 48) .compact _ 0x300 0x400 0x400 0 48 (by constructor <;> decide) (by decide) (by decide) (by constructor <;> decide)
    (by constructor <;> decide) (.inr (by decide)) (.inl (by decide))

-- 13 bytes: one group of eight and five bytes
example : zeroesFast (fun _ => 0xFF) 0x200 13 = some (written (fun _ => 0xFF) 0x200 (List.replicate 13 0)) :=
  (C72_overwriteWithZeroes (size := 200) _ 0x200 13 (by constructor <;> decide) (by decide) (by decide)).2

end Avr8
