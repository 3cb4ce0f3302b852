import Verif.Proofs.SpongeSpec

/-!
Helper lemmas: each API function of the sponge in terms of the one-byte machine.
-/

namespace Sponge

variable {P : SnP}

/-- The invariant of sponge instances. -/
structure WF (P : SnP) (i : SpongeInst) : Prop where
  len : i.state.length = P.width
  pos : 0 < i.rate / 8
  le : i.rate / 8 ≤ P.width
  idx_le : i.byteIOIndex ≤ i.rate / 8
  idx_lt : i.squeezing = false → i.byteIOIndex < i.rate / 8

theorem badParams_iff (rate capacity : BitVec 32) (hw : P.width * 8 < 2 ^ 32) :
    badParams P rate capacity = false ↔
      rate.toNat + capacity.toNat = P.width * 8 ∧ 0 < rate.toNat ∧ rate.toNat % 8 = 0 := by
  have h1 := rate.isLt
  have h2 := capacity.isLt
  simp only [badParams, Bool.or_eq_false_iff, bne_eq_false_iff_eq, beq_eq_false_iff_ne, ne_eq,
    decide_eq_false_iff_not, BitVec.not_lt, ← BitVec.toNat_inj, BitVec.le_def, BitVec.toNat_add,
    BitVec.toNat_ofNat, BitVec.toNat_umod, Nat.mod_eq_of_lt hw]
  have e0 : BitVec.toNat (0 : BitVec 32) = 0 := rfl
  have e8 : BitVec.toNat (8 : BitVec 32) = 8 := rfl
  rw [e0, e8]
  constructor
  · rintro ⟨ha, ⟨hb, hc⟩, hd⟩
    refine ⟨?_, by omega, by omega⟩
    omega
  · rintro ⟨ha, hb, hc⟩
    refine ⟨?_, ⟨by omega, by omega⟩, by omega⟩
    rw [ha, Nat.mod_eq_of_lt hw]

/-- What an accepted pair of parameters guarantees. -/
theorem ok_params {rate capacity : BitVec 32} (hw : P.width * 8 < 2 ^ 32)
    (h : badParams P rate capacity = false) :
    0 < rate.toNat / 8 ∧ rate.toNat / 8 ≤ P.width ∧ 8 * (rate.toNat / 8) = rate.toNat := by
  obtain ⟨h1, h2, h3⟩ := (badParams_iff rate capacity hw).1 h
  omega

theorem spongeInit_ok {mem inst : SpongeInst} {rate capacity : BitVec 32}
    (h : spongeInit P mem rate capacity = (0, inst)) :
    badParams P rate capacity = false ∧
      inst = { state := P.init, rate := rate.toNat, byteIOIndex := 0, squeezing := false } := by
  unfold spongeInit at h
  cases hb : badParams P rate capacity
  · simp only [hb, Bool.false_eq_true, if_false, Prod.mk.injEq, true_and] at h
    exact ⟨rfl, h.symm⟩
  · simp [hb] at h

theorem spongeInit_WF {mem inst : SpongeInst} {rate capacity : BitVec 32}
    (hw : P.width * 8 < 2 ^ 32)
    (h : spongeInit P mem rate capacity = (0, inst)) : WF P inst := by
  obtain ⟨hb, rfl⟩ := spongeInit_ok h
  obtain ⟨h1, h2, _⟩ := ok_params hw hb
  exact ⟨by simp [SnP.init], h1, h2, by simp, fun _ => h1⟩

theorem absorb_eq (hP : P.Valid) {i : SpongeInst} (h : WF P i) (hs : i.squeezing = false)
    (m : Bytes) :
    absorb P i m = some (0, { i with
      state := (absorbAll P (i.rate / 8) (i.state, i.byteIOIndex) m).1,
      byteIOIndex := (absorbAll P (i.rate / 8) (i.state, i.byteIOIndex) m).2 }) := by
  unfold absorb
  simp only [hs, Bool.false_eq_true, if_false]
  rw [absorbLoop_eq hP h.pos h.le _ _ _ _ (by omega) h.len (h.idx_lt hs)]
  rfl

theorem absorb_late {i : SpongeInst} (hs : i.squeezing = true) (m : Bytes) :
    absorb P i m = some (1, i) := by
  simp [absorb, hs]

theorem lastFewBits_eq {i : SpongeInst} (h : WF P i) (hP : P.Valid) (hs : i.squeezing = false)
    (d : Byte) (hd : d ≠ 0) :
    absorbLastFewBits P i d = some (0, { i with
      state := finish P (i.rate / 8) (i.state, i.byteIOIndex) d, byteIOIndex := 0,
      squeezing := true }) := by
  unfold absorbLastFewBits
  have h1 := h.idx_lt hs
  have h2 := h.le
  have h3 := h.len
  have h4 := h.pos
  simp only [hd, hs, Bool.false_eq_true, if_false, SnP.addByte, h3]
  rw [if_pos (by omega)]
  simp only [Option.bind_eq_bind, Option.bind_some]
  rw [if_pos (by split <;> simp [hP.permute_len, h3] <;> omega)]
  rfl

theorem squeeze_eq (hP : P.Valid) {i : SpongeInst} (h : WF P i) (hs : i.squeezing = true) (n : Nat) :
    squeeze P i n = some (0, { i with
      state := (squeezeAll P (i.rate / 8) n (i.state, i.byteIOIndex)).1.1,
      byteIOIndex := (squeezeAll P (i.rate / 8) n (i.state, i.byteIOIndex)).1.2 },
      (squeezeAll P (i.rate / 8) n (i.state, i.byteIOIndex)).2) := by
  unfold squeeze
  simp only [hs, Bool.not_true, Bool.false_eq_true, if_false, Option.bind_eq_bind, Option.bind_some]
  rw [squeezeLoop_eq hP h.pos h.le _ _ _ _ (by omega) h.len h.idx_le]
  rfl

theorem squeeze_absorbing {i i' : SpongeInst} {c : Nat} (hs : i.squeezing = false)
    (h : absorbLastFewBits P i 0x01 = some (c, i')) (h' : i'.squeezing = true) (n : Nat) :
    squeeze P i n = squeeze P i' n := by
  unfold squeeze
  simp only [hs, h', h, Bool.not_true, Bool.not_false, Bool.false_eq_true, if_false, if_true,
    Option.map_some]

theorem WF.absorbed (hP : P.Valid) {i : SpongeInst} (h : WF P i) (hs : i.squeezing = false)
    (m : Bytes) :
    WF P { i with
      state := (absorbAll P (i.rate / 8) (i.state, i.byteIOIndex) m).1,
      byteIOIndex := (absorbAll P (i.rate / 8) (i.state, i.byteIOIndex) m).2 } := by
  have := absorbAll_idx (P := P) (i.rate / 8) (i.state, i.byteIOIndex) m (h.idx_lt hs)
  exact ⟨absorbAll_len hP _ _ _ h.len, h.pos, h.le, Nat.le_of_lt this, fun _ => this⟩

theorem WF.finished (hP : P.Valid) {i : SpongeInst} (h : WF P i) (d : Byte) :
    WF P { i with state := finish P (i.rate / 8) (i.state, i.byteIOIndex) d, byteIOIndex := 0,
                  squeezing := true } :=
  ⟨finish_len hP _ _ h.len d, h.pos, h.le, Nat.zero_le _, fun hs => by cases hs⟩

theorem WF.squeezed (hP : P.Valid) {i : SpongeInst} (h : WF P i) (hs : i.squeezing = true) (n : Nat) :
    WF P { i with
      state := (squeezeAll P (i.rate / 8) n (i.state, i.byteIOIndex)).1.1,
      byteIOIndex := (squeezeAll P (i.rate / 8) n (i.state, i.byteIOIndex)).1.2 } := by
  obtain ⟨h1, h2⟩ := squeezeAll_inv hP (i.rate / 8) n h.pos (i.state, i.byteIOIndex) h.len h.idx_le
  exact ⟨h1, h.pos, h.le, h2, fun h' => by simp [hs] at h'⟩

theorem sponge_eq (hP : P.Valid) (hw : P.width * 8 < 2 ^ 32) {rate capacity : BitVec 32}
    (hb : badParams P rate capacity = false) (m : Bytes) (d : Byte) (hd : d ≠ 0) (n : Nat) :
    sponge P rate capacity m d n = some (0, (squeezeAll P (rate.toNat / 8) n
      (finish P (rate.toNat / 8) (absorbAll P (rate.toNat / 8) (P.init, 0) m) d, 0)).2) := by
  obtain ⟨hr, hrw, _⟩ := ok_params hw hb
  generalize hR : rate.toNat / 8 = r at *
  have hinit : P.init.length = P.width := by simp [SnP.init]
  unfold sponge
  simp only [hb, Bool.false_eq_true, if_false, hd, hR]
  -- the fast part
  have hfast : ∃ s0 m0, s0.length = P.width ∧ absorbAll P r (P.init, 0) m = absorbAll P r (s0, 0) m0 ∧
      spongeFast P r P.init m = (s0, m0) := by
    unfold spongeFast
    split
    · rename_i F hF
      split
      · rename_i h
        have hlb : r / P.laneBytes * P.laneBytes = r :=
          Nat.div_mul_cancel (Nat.dvd_of_mod_eq_zero h.1)
        have hf := hP.fast_ok F hF P.init (r / P.laneBytes) m hinit (by omega) (by omega)
        rw [hlb] at hf
        rw [hf]
        obtain ⟨h1, h2⟩ := absorbBlocks_eq hP hr (m.length / r) P.init m hinit (Nat.div_mul_le_self _ _)
        exact ⟨_, _, h2, h1, rfl⟩
      · exact ⟨P.init, m, hinit, rfl, rfl⟩
    · exact ⟨P.init, m, hinit, rfl, rfl⟩
  obtain ⟨s0, m0, hs0, he, hm⟩ := hfast
  rw [hm]
  simp only
  obtain ⟨s1, rest, h1, h2, h3, h4, _⟩ := absorbWhole_eq hP hr hrw (m0.length + 1) s0 m0 (by omega) hs0
  have hlt : rest.length ≤ P.width := by omega
  have hlt' : rest.length < P.width := by omega
  simp only [h1, Option.bind_eq_bind, Option.bind_some, SnP.readBuf, Nat.le_refl, if_true,
    List.take_length, SnP.addBytes, Nat.zero_add, h3, hlt, SnP.addByte, Bytes.length_xorAt, hlt']
  rw [he, h4, absorbAll_lt r s1 0 rest (by omega)]
  rw [if_pos (by split <;> simp [hP.permute_len, h3] <;> omega)]
  simp only [Option.bind_some]
  rw [outputLoop_eq hP hr hrw _ _ _ (by omega) (hP.permute_len _ (by
    rw [Bytes.length_xorAt]; split <;> simp [hP.permute_len, h3]))]
  simp [finish]

end Sponge
