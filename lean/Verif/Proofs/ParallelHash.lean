import Verif.Model.ParallelHash
import Verif.Proofs.Tree
import Verif.Proofs.CShake

/-!
Helper lemmas for ParallelHash.
-/

namespace ParallelHash
open SP800185 PlSnP

variable {P : SnP}

theorem capBytes_eq {sec : Nat} (hsec : sec = 128 ∨ sec = 256) :
    rateBytes sec / 8 * 8 = rateBytes sec ∧ capBytes sec / 8 * 8 = capBytes sec ∧ 8 * capBytes sec = 2 * sec ∧
      capBytes sec ≤ rateBytes sec := by
  rcases hsec with rfl | rfl <;> decide

theorem leafOk (hw : P.width = 200) {sec : Nat} (hsec : sec = 128 ∨ sec = 256) {B : Nat} (hB : 0 < B)
    (h8 : B % 8 = 0) : LeafOk P (leaf sec B) := by
  refine ⟨?_, ?_, hB, h8, ?_, show (0x1F : Byte) ≠ 0 by decide, show ¬ 0x80#8 ≤ 0x1F by decide⟩
  · show 0 < rateBytes sec / 8
    rcases hsec with rfl | rfl <;> decide
  · show rateBytes sec / 8 * 8 ≤ P.width
    rw [hw]; rcases hsec with rfl | rfl <;> decide
  · show capBytes sec / 8 * 8 ≤ rateBytes sec / 8 * 8
    rcases hsec with rfl | rfl <;> decide

/-! ### The power-of-two check -/

theorem pow2Loop_eq (fuel : Nat) : ∀ t, 0 < t → t < 2 ^ fuel →
    ∃ b, pow2Loop (fuel + 1) t = some b ∧ (b = true ↔ ∃ k, t = 2 ^ k) := by
  induction fuel with
  | zero => intro t h1 h2; exact ⟨true, by simp [pow2Loop]; omega, by simp; exact ⟨0, by simp at h2; omega⟩⟩
  | succ fuel ih =>
    intro t h1 h2
    unfold pow2Loop
    by_cases ht : t > 1
    · rw [if_pos ht]
      by_cases ho : t % 2 = 1
      · rw [if_pos ⟨ho, by omega⟩]
        refine ⟨false, rfl, by simp; rintro (_ | k) rfl <;> [omega; skip]; rw [Nat.pow_succ] at ho; omega⟩
      · rw [if_neg (by omega)]
        obtain ⟨b, h3, h4⟩ := ih (t / 2) (by omega) (by rw [Nat.pow_succ] at h2; omega)
        refine ⟨b, h3, h4.trans ⟨?_, ?_⟩⟩
        · rintro ⟨k, hk⟩; exact ⟨k + 1, by rw [Nat.pow_succ]; omega⟩
        · rintro ⟨k, rfl⟩
          rcases k with _ | k
          · omega
          · exact ⟨k, by rw [Nat.pow_succ]; omega⟩
    · rw [if_neg ht]
      exact ⟨true, rfl, by simp; exact ⟨0, by omega⟩⟩

/-- A ParallelHash instance that absorbs. -/
def phabs (q f : SpongeInst) (L B n T : Nat) : PhInst := ⟨q, f, L, B, n, T, .absorbing⟩

/-- The bytes absorbed by `ParallelHash_Initialize`. -/
def phPrefix (sec B : Nat) (cust : Bytes) (cb : Nat) : Bytes :=
  cPrefix (rateBytes sec) (nameBytes.drop 2) 96 cust cb ++ leftEncode (BitVec.ofNat 64 B)

theorem name_eq : nameBytes = leftEncode (BitVec.ofNat 64 96) ++ (nameBytes.drop 2).take (96 / 8) := by decide

theorem phInit_eq (hP : P.Valid) (hw : P.width = 200) {sec : Nat} (hsec : sec = 128 ∨ sec = 256)
    (mem : PhInst) (B L : Nat) (hB : 8 ≤ B) (hB2 : ∃ k, B = 2 ^ k) (hB64 : B < 2 ^ 64) (cust : Bytes) (cb : Nat)
    (hc : cb ≤ 8 * cust.length) (hc64 : cb + 7 < 2 ^ 64) :
    phInit P sec mem B L cust cb = some (0,
      phabs mem.queueNode (Sponge.absd P (rateBytes sec) (phPrefix sec B cust cb)) L B 0 0) := by
  obtain ⟨hr, hr2, -, hr64⟩ := rateBytes_eq hsec
  have hrw : rateBytes sec ≤ P.width := by omega
  obtain ⟨b, h1, h2⟩ := pow2Loop_eq 64 B (by omega) hB64
  have hb := h2.2 hB2
  subst hb
  have h3 : (cb + 7) / 8 ≤ cust.length := by omega
  unfold phInit
  rw [if_neg (by omega), h1]
  simp only [Option.bind_eq_bind, Option.bind_some, spongeInit_eq hw hsec, SnP.readBuf, bytesFor_eq hc64, h3,
    if_true, absorbSeq_eq hP hr hrw, initTail, zeroPad_eq hP hw hsec, Sponge.absorb_absd hP hr hrw, ne_eq,
    not_true_eq_false, if_false, reduceCtorEq]
  unfold phabs phPrefix cPrefix
  simp only [List.flatten_cons, List.flatten_nil, List.append_nil, List.nil_append]
  rw [name_eq]
  simp only [List.append_assoc]
  rfl

theorem phInit_bad (sec : Nat) (mem : PhInst) (B L : Nat) (hB64 : B < 2 ^ 64)
    (h : ¬ (8 ≤ B ∧ ∃ k, B = 2 ^ k)) (cust : Bytes) (cb : Nat) :
    phInit P sec mem B L cust cb = some (1, mem) := by
  unfold phInit
  by_cases h8 : B < 8
  · rw [if_pos h8]
  · obtain ⟨b, h1, h2⟩ := pow2Loop_eq 64 B (by omega) hB64
    rw [if_neg h8, h1]
    have : b = false := by
      cases b
      · rfl
      · exact absurd ⟨by omega, h2.1 rfl⟩ h
    simp [this]

/-! ### Update -/

section
variable (hP : P.Valid) (hw : P.width = 200) {sec : Nat} (hsec : sec = 128 ∨ sec = 256) {B : Nat}
  (hB : 0 < B)
include hP hw hsec

theorem updQueue_eq {m0 M : Bytes} {q f : SpongeInst} {n k L T : Nat}
    (h : TreeOk P (rateBytes sec) B 0x1F#8 (capBytes sec) m0 M q f n k) (data : Bytes) :
    ∃ q' f' n' k' used rest, data = used ++ rest ∧
      updQueue P sec (phabs q f L B n T) data = some (0, phabs q' f' L B n' T, rest) ∧
      TreeOk P (rateBytes sec) B 0x1F#8 (capBytes sec) m0 (M ++ used) q' f' n' k' ∧ (n' = 0 ∨ rest = []) := by
  obtain ⟨hr, hr2, -, hr64⟩ := rateBytes_eq hsec
  have hrw : rateBytes sec ≤ P.width := by omega
  have hlt := h.lt
  unfold updQueue phabs
  by_cases hn : n = 0
  · exact ⟨q, f, n, k, [], data, rfl, by simp [hn], by simpa using h, Or.inl hn⟩
  · simp only [ne_eq, hn, not_false_eq_true, if_true]
    by_cases hd : data.length < B - n
    · obtain ⟨q', h1, h2⟩ := h.more hP hr hrw hn data (by omega)
      have hne : n + data.length ≠ B := by omega
      refine ⟨q', f, n + data.length, k, data, [], by simp, ?_, h2, Or.inr rfl⟩
      simp [hd, SnP.readBuf, h1, hne]
    · obtain ⟨q', q'', f', h1, h2, h3⟩ := h.full hP hr hrw (by decide) hn (data.take (B - n)) (by simp; omega)
      have he : n + (B - n) = B := by omega
      have hle : B - n ≤ data.length := by omega
      refine ⟨q'', f', 0, k + 1, data.take (B - n), data.drop (B - n), by simp, ?_, h3, Or.inl rfl⟩
      simp [hd, SnP.readBuf, hle, h1, he, h2]

include hB
theorem updRest_eq {m0 : Bytes} {L T : Nat} (fuel : Nat) : ∀ {M : Bytes} {q f : SpongeInst} {n k : Nat}
    (data : Bytes), TreeOk P (rateBytes sec) B 0x1F#8 (capBytes sec) m0 M q f n k → (n = 0 ∨ data = []) →
    data.length < fuel →
    ∃ q' f' n' k', updRest P sec fuel (phabs q f L B n T) data = some (0, phabs q' f' L B n' T) ∧
      TreeOk P (rateBytes sec) B 0x1F#8 (capBytes sec) m0 (M ++ data) q' f' n' k' := by
  obtain ⟨hr, hr2, -, hr64⟩ := rateBytes_eq hsec
  have hrw : rateBytes sec ≤ P.width := by omega
  induction fuel with
  | zero => intro M q f n k data _ _ h; omega
  | succ fuel ih =>
    intro M q f n k data h h0 hf
    unfold updRest
    by_cases hd : 0 < data.length
    · have hn : n = 0 := by
        rcases h0 with h0 | h0
        · exact h0
        · subst h0; simp at hd
      subst hn
      rw [if_pos hd]
      simp only [spongeInit_eq hw hsec, phabs, ne_eq, not_true_eq_false, if_false]
      by_cases hl : data.length < B
      · obtain ⟨q', h1, h2⟩ := h.start hP hr hrw data hl
        obtain ⟨q2, f2, n2, k2, h3, h4⟩ := ih [] h2 (Or.inr rfl) (by simp; omega)
        refine ⟨q2, f2, n2, k2, ?_, by simpa using h4⟩
        have hne : data.length ≠ B := by omega
        simp [hl, SnP.readBuf, h1, hne]
        exact h3
      · obtain ⟨q', q'', f', h1, h2, h3⟩ := h.startFull hP hr hrw (by decide) (data.take B) (by simp; omega) hB
        obtain ⟨q2, f2, n2, k2, h4, h5⟩ := ih (data.drop B) h3 (Or.inl rfl) (by simp; omega)
        refine ⟨q2, f2, n2, k2, ?_, by simpa using h5⟩
        have hle : B ≤ data.length := by omega
        simp [hl, SnP.readBuf, hle, h1, h2]
        exact h4
    · rw [if_neg hd]
      have : data = [] := List.eq_nil_of_length_eq_zero (by omega)
      subst this
      exact ⟨q, f, n, k, rfl, by simpa using h⟩

variable (h8 : B % 8 = 0) (cfgs : List Cfg) (hcfg : ∀ cfg ∈ cfgs, CfgOk P (leaf sec B) cfg)
include h8 hcfg

/-- `leafStages` changes nothing when there is not enough data. -/
theorem updBlocks_eq {m0 M : Bytes} {L T : Nat} {q f : SpongeInst} {n k : Nat} (data : Bytes)
    (h : TreeOk P (rateBytes sec) B 0x1F#8 (capBytes sec) m0 M q f n k) (h0 : n = 0 ∨ data = []) :
    ∃ q' f' n' k', updBlocks P sec cfgs (phabs q f L B n T) data = some (0, phabs q' f' L B n' T) ∧
      TreeOk P (rateBytes sec) B 0x1F#8 (capBytes sec) m0 (M ++ data) q' f' n' k' := by
  obtain ⟨hr, hr2, -, hr64⟩ := rateBytes_eq hsec
  have hrw : rateBytes sec ≤ P.width := by omega
  obtain ⟨e1, e2, -, -⟩ := capBytes_eq hsec
  have hL := leafOk hw hsec hB h8
  unfold updBlocks
  by_cases hn : n = 0
  · subst hn
    obtain ⟨j, f', h1, h2, h3⟩ := TreeOk.blocks (L := leaf sec B) hP hL cfgs hcfg
      (m0 := m0) (M := M) (q := q) (f := f) (k := k)
      (by show TreeOk P (rateBytes sec / 8 * 8) B 0x1F#8 (capBytes sec / 8 * 8) m0 M q f 0 k; rwa [e1, e2]) data
    change TreeOk P (rateBytes sec / 8 * 8) B 0x1F#8 (capBytes sec / 8 * 8) m0 (M ++ data.take (j * B)) q f' 0
      (k + j) at h3
    rw [e1, e2] at h3
    obtain ⟨q2, f2, n2, k2, h4, h5⟩ := updRest_eq hP hw hsec hB (L := L) (T := T)
      ((data.drop (j * B)).length + 1) (data.drop (j * B)) h3 (Or.inl rfl) (by omega)
    refine ⟨q2, f2, n2, k2, ?_, ?_⟩
    · simp only [phabs]
      rw [h2]
      exact h4
    · simpa [List.append_assoc, List.take_append_drop] using h5
  · have hd : data = [] := h0.resolve_left hn
    subst hd
    obtain ⟨m, rfl⟩ : ∃ m, f = Sponge.absd P (rateBytes sec) m := by
      obtain ⟨A, Q, -, -, -, h, -⟩ := h; exact ⟨_, h⟩
    obtain ⟨j, h1, h2⟩ := leafStages_eq hP hL hr hrw cfgs hcfg m []
    have hj : j = 0 := by
      rcases Nat.eq_zero_or_pos j with h | h
      · exact h
      · have := Nat.mul_pos h hB
        simp [leaf] at h1
        omega
    subst hj
    simp only [leafCVs, List.append_nil] at h2
    refine ⟨q, _, n, k, ?_, by simpa using h⟩
    simp only [phabs]
    rw [h2]
    simp [updRest]

/-- `ParallelHash_Update`. -/
theorem phUpdate_eq {m0 M : Bytes} {L T : Nat} {q f : SpongeInst} {n k : Nat} (data : Bytes) (bits : Nat)
    (hb8 : bits % 8 = 0) (hb : bits ≤ 8 * data.length)
    (h : TreeOk P (rateBytes sec) B 0x1F#8 (capBytes sec) m0 M q f n k) :
    ∃ q' f' n' k', phUpdate P sec cfgs (phabs q f L B n T) data bits =
        some (0, phabs q' f' L B n' ((T + bits) % 2 ^ 64)) ∧
      TreeOk P (rateBytes sec) B 0x1F#8 (capBytes sec) m0 (M ++ data.take (bits / 8)) q' f' n' k' := by
  have hle : bits / 8 ≤ data.length := by omega
  obtain ⟨q1, f1, n1, k1, used, rest, h1, h2, h3, h4⟩ := updQueue_eq hP hw hsec (L := L)
    (T := (T + bits) % 2 ^ 64) h (data.take (bits / 8))
  obtain ⟨q2, f2, n2, k2, h5, h6⟩ := updBlocks_eq hP hw hsec hB h8 cfgs hcfg (L := L)
    (T := (T + bits) % 2 ^ 64) rest h3 h4
  refine ⟨q2, f2, n2, k2, ?_, by rw [h1, ← List.append_assoc]; exact h6⟩
  unfold phUpdate
  simp only [phabs] at h2 h5 ⊢
  simp only [hb8, SnP.readBuf, hle, if_true, Option.bind_eq_bind, Option.bind_some, h2, ne_eq, not_true_eq_false,
    if_false, h5]

end

/-! ### Final and squeeze -/

/-- The number of blocks of a message. -/
def blocksOf (len B : Nat) : Nat := (len + B - 1) / B

theorem blocksOf_eq {len B n k : Nat} (h : len = k * B + n) (hn : n < B) :
    blocksOf len B = if n = 0 then k else k + 1 := by
  unfold blocksOf
  subst h
  split
  · rename_i h0
    subst h0
    rw [show k * B + 0 + B - 1 = k * B + (B - 1) by omega, Nat.add_comm, Nat.add_mul_div_right _ _ (by omega),
      Nat.div_eq_of_lt (by omega)]; omega
  · rw [show k * B + n + B - 1 = (n - 1) + (k + 1) * B by rw [Nat.add_mul]; omega,
      Nat.add_mul_div_right _ _ (by omega), Nat.div_eq_of_lt (by omega)]; omega

/-- The part of the instance that behaves as a cSHAKE instance. -/
def toC (phi : PhInst) : CShakeInst :=
  { sponge := phi.finalNode, fixedOutputLength := phi.fixedOutputLength, lastByteBitLen := 0,
    lastByteValue := 0, emptyNameCustom := false, phase := phi.phase }

def ofC (phi : PhInst) (k : CShakeInst) : PhInst := { phi with finalNode := k.sponge, phase := k.phase }

theorem phSqueeze_eq (phi : PhInst) (n : Nat) :
    phSqueeze P phi n = (cSqueeze P (toC phi) n).map fun x => (x.1, ofC phi x.2.1, x.2.2) := by
  unfold phSqueeze cSqueeze
  simp only [toC]
  by_cases h : phi.phase = .squeezing
  · simp only [h, ne_eq, not_true_eq_false, if_false, Option.bind_eq_bind]
    rcases Sponge.squeeze P phi.finalNode (bytesFor n) with _ | ⟨c, sp, o⟩
    · rfl
    · simp only [Option.bind_some]
      by_cases hc : c = 0
      · by_cases h8 : n % 8 = 0
        · simp [hc, h8, ofC, h]
        · rcases hm : maskLast o n with _ | o' <;> simp [hc, h8, ofC, hm]
      · simp [hc, ofC, h]
  · simp [h, ofC]

theorem cSqueeze_toC {phi : PhInst} {n c : Nat} {k : CShakeInst} {o : Bytes}
    (h : cSqueeze P (toC phi) n = some (c, k, o)) : toC (ofC phi k) = k := by
  unfold cSqueeze at h
  simp only [toC] at h
  by_cases hp : phi.phase = .squeezing
  · simp only [hp, ne_eq, not_true_eq_false, if_false, Option.bind_eq_bind, Option.bind_eq_some_iff] at h
    obtain ⟨⟨c', sp, o'⟩, -, h⟩ := h
    by_cases hc : c' = 0
    · by_cases h8 : n % 8 = 0
      · simp [hc, h8] at h; rw [← h.2.1]; rfl
      · simp [hc, h8, Option.bind_eq_some_iff] at h
        rw [← h.2.2]; rfl
    · simp [hc] at h; rw [← h.2.1]; rfl
  · simp [hp] at h; rw [← h.2.1]; rfl

theorem finSwitch_eq (phi : PhInst) :
    finSwitch P phi = (cSwitch P (toC phi)).map fun x => (x.1, ofC phi x.2.1, x.2.2) := by
  unfold finSwitch cSwitch
  by_cases hL : phi.fixedOutputLength = 0
  · simp only [toC, hL, ne_eq, not_true_eq_false, if_false, Option.map_some]
    rfl
  · simp only [ne_eq, hL, not_false_eq_true, if_true, toC, phSqueeze_eq, Option.bind_eq_bind]
    rcases cSqueeze P _ _ with _ | ⟨c, k, o⟩
    · rfl
    · simp only [Option.map_some, Option.bind_some]
      by_cases hc : c = 0 <;> simp [hc, ofC]

theorem cFinal_cabsd (hP : P.Valid) {r : Nat} (hr : 0 < r) (hrw : r ≤ P.width) (L : Nat) (m : Bytes) :
    cFinal P (cabsd P r L m false) = cSwitch P (csqd P r m 0x04 0 (cabsd P r L m false)) := by
  simp [cFinal, cabsd, cLastBytes, cFinish, csqd, Sponge.lastFewBits_absd hP hr hrw]

/-- `ParallelHash_Final` is `cSHAKE_Final` on a sponge that has absorbed the chaining values and the two
encodings. -/
theorem phFinal_gen (hP : P.Valid) (hw : P.width = 200) {sec : Nat} (hsec : sec = 128 ∨ sec = 256)
    {m0 M : Bytes} {q f : SpongeInst} {n k L B T : Nat}
    (h : TreeOk P (rateBytes sec) B 0x1F#8 (capBytes sec) m0 M q f n k) :
    ∃ q', phFinal P sec (phabs q f L B n T) =
      (cFinal P (cabsd P (rateBytes sec) L (m0 ++ leafCVs P (rateBytes sec) B 0x1F#8 (capBytes sec)
        (blocksOf M.length B) M ++ (rightEncode (BitVec.ofNat 64 (nBlocks (phabs q f L B n T))) ++
          rightEncode (BitVec.ofNat 64 L))) false)).map
          fun x => (x.1, ofC (phabs q' f L B n T) x.2.1, x.2.2) := by
  obtain ⟨hr, hr2, -, hr64⟩ := rateBytes_eq hsec
  have hrw : rateBytes sec ≤ P.width := by omega
  have hlen := h.length
  have hlt := h.lt
  have hb := blocksOf_eq hlen hlt
  have hfin : ∃ q', finQueue P sec (phabs q f L B n T) = some (0, phabs q' (Sponge.absd P (rateBytes sec)
      (m0 ++ leafCVs P (rateBytes sec) B 0x1F#8 (capBytes sec) (blocksOf M.length B) M)) L B n T) := by
    unfold finQueue
    by_cases hn : n = 0
    · subst hn
      rw [hb, if_pos rfl]
      refine ⟨q, ?_⟩
      rw [h.closed]; simp [phabs]
    · obtain ⟨q', h1⟩ := h.close hP hr hrw (by decide) hn
      rw [hb, if_neg hn]
      refine ⟨q', ?_⟩
      simp [phabs, hn, h1]
  obtain ⟨q', hfin⟩ := hfin
  refine ⟨q', ?_⟩
  rw [cFinal_cabsd hP hr hrw]
  unfold phFinal
  rw [hfin]
  simp only [phabs, ne_eq, not_true_eq_false, if_false, Option.bind_eq_bind, Option.bind_some,
    absorbSeq_eq hP hr hrw, Sponge.lastFewBits_absd hP hr hrw _ (0x04 : Byte) (by decide)]
  rw [finSwitch_eq]
  simp only [toC, csqd, cabsd, List.flatten_cons, List.flatten_nil, List.append_nil, List.append_assoc]
  rfl

theorem phFinal_eq (hP : P.Valid) (hw : P.width = 200) {sec : Nat} (hsec : sec = 128 ∨ sec = 256)
    {m0 M : Bytes} {q f : SpongeInst} {n k L B T : Nat} (hB64 : M.length + B < 2 ^ 64)
    (h : TreeOk P (rateBytes sec) B 0x1F#8 (capBytes sec) m0 M q f n k) (hT : T = 8 * M.length) :
    ∃ q', phFinal P sec (phabs q f L B n T) =
      (cFinal P (cabsd P (rateBytes sec) L (m0 ++ leafCVs P (rateBytes sec) B 0x1F#8 (capBytes sec)
        (blocksOf M.length B) M ++ (rightEncode (BitVec.ofNat 64 (blocksOf M.length B)) ++
          rightEncode (BitVec.ofNat 64 L))) false)).map
          fun x => (x.1, ofC (phabs q' f L B n T) x.2.1, x.2.2) := by
  have hnb : nBlocks (phabs q f L B n T) = blocksOf M.length B := by
    unfold nBlocks blocksOf phabs
    simp only [hT]
    rw [show 8 * M.length / 8 = M.length by omega, Nat.mod_eq_of_lt (by omega)]
  have := phFinal_gen hP hw hsec (L := L) (T := T) h
  rwa [hnb] at this

/-! ### Lane offsets that wrap around -/

/-- Two states and lane offset 2^29 (block length 2^32): both instances read the same data. -/
theorem addLanesAll_wrap (data : Bytes) (lc : Nat) (s1 s2 : Bytes) (h1 : lc * 8 ≤ s1.length)
    (h2 : lc * 8 ≤ s2.length) (hd : lc * 8 ≤ data.length) :
    addLanesAll data lc (2 ^ 29) 0 [s1, s2] =
      some [Bytes.xorAt s1 0 (data.take (lc * 8)), Bytes.xorAt s2 0 (data.take (lc * 8))] := by
  have e : min (lc * 8) data.length = lc * 8 := by omega
  simp [addLanesAll, lanePtr, SnP.readBuf, hd, SnP.addBytes, e, h1, h2]

theorem absorbLoop_wrap (hP : P.Valid) (lc : Nat) (hlc : 0 < lc) (hlw : lc * 8 ≤ P.width) (fuel : Nat) :
    ∀ (s1 s2 A : Bytes) (len : Nat), len < fuel → len ≤ A.length → s1.length = P.width → s2.length = P.width →
    ∃ t1 t2, t1.length = P.width ∧ t2.length = P.width ∧ ∀ Y,
      absorbLoop P lc (2 ^ 29) fuel [s1, s2] (A ++ Y) len =
        some ([t1, t2], len / (lc * 8) * (lc * 8)) := by
  induction fuel with
  | zero => intro s1 s2 A len h; omega
  | succ fuel ih =>
    intro s1 s2 A len hf hA hs1 hs2
    by_cases hl : lc * 8 ≤ len
    · obtain ⟨t1, t2, g1, g2, h⟩ := ih (P.permute (Bytes.xorAt s1 0 (A.take (lc * 8))))
        (P.permute (Bytes.xorAt s2 0 (A.take (lc * 8)))) (A.drop (lc * 8)) (len - lc * 8) (by omega)
        (by simp; omega) (hP.permute_len _ (by simpa using hs1)) (hP.permute_len _ (by simpa using hs2))
      refine ⟨t1, t2, g1, g2, fun Y => ?_⟩
      have e1 : (A ++ Y).take (lc * 8) = A.take (lc * 8) := List.take_append_of_le_length (by omega)
      have e2 : (A ++ Y).drop (lc * 8) = A.drop (lc * 8) ++ Y := List.drop_append_of_le_length (by omega)
      unfold absorbLoop
      rw [if_pos hl, addLanesAll_wrap _ _ _ _ (by omega) (by omega) (by simp; omega), e1, e2]
      simp only [Option.bind_eq_bind, Option.bind_some, permuteAll, List.map_cons, List.map_nil]
      rw [h Y]
      simp only [Option.bind_some, Option.some.injEq, Prod.mk.injEq, true_and]
      have hd : len / (lc * 8) = (len - lc * 8) / (lc * 8) + 1 := by
        rw [← Nat.add_div_right _ (by omega), Nat.sub_add_cancel hl]
      rw [hd, Nat.add_mul, Nat.one_mul]
    · refine ⟨s1, s2, hs1, hs2, fun Y => ?_⟩
      unfold absorbLoop
      rw [if_neg hl, Nat.div_eq_of_lt (by omega)]
      simp

end ParallelHash
