import Verif.Proofs.KeccakHash
import Verif.Props.Toy

/-!
# Properties C08-C11: Keccak_Hash, the SHA-3 functions and TurboSHAKE
-/

namespace KeccakHash

variable {P : SnP}

/-- Feed a list of (buffer, bit length) with `Keccak_HashUpdate`. -/
def updates (P : SnP) (i : HashInst) : List (Bytes × Nat) → Option (List Nat × HashInst)
  | [] => some ([], i)
  | u :: us => do
    let (c, i) ← hashUpdate P i u.1 u.2
    let (cs, i) ← updates P i us
    some (c :: cs, i)

/-- Extract pieces of the given bit lengths with `Keccak_HashSqueeze`. -/
def squeezes (P : SnP) (i : HashInst) : List Nat → Option (List Nat × HashInst × Bytes)
  | [] => some ([], i, [])
  | n :: ns => do
    let (c, i, o) ← hashSqueeze P i n
    let (cs, i, os) ← squeezes P i ns
    some (c :: cs, i, o ++ os)

/-- The bit string given by a buffer and a bit length: the first `n` bits of the buffer. -/
def bitsOf (u : Bytes × Nat) : Bits := (Bits.ofBytes u.1).take u.2

theorem hashInit_ok (hw : P.width * 8 < 2 ^ 32) {mem i0 : HashInst} {rate capacity hashbitlen : BitVec 32}
    {suffix : Byte} (h0 : hashInit P mem rate capacity hashbitlen suffix = (0, i0)) :
    suffix ≠ 0 ∧ 0 < rate.toNat / 8 ∧ rate.toNat / 8 ≤ P.width ∧ 8 * (rate.toNat / 8) = rate.toNat ∧
      i0 = habsd P (rate.toNat / 8) [] hashbitlen.toNat suffix := by
  unfold hashInit at h0
  by_cases hs : suffix = 0
  · simp [hs] at h0
  · simp only [hs, if_false] at h0
    cases hb : Sponge.badParams P rate capacity
    · obtain ⟨h1, h2, h3⟩ := Sponge.ok_params hw hb
      have := Sponge.spongeInit_absd (mem := mem.sponge) hb h3.symm
      rw [this] at h0
      simp only [ne_eq, not_true_eq_false, if_false, Prod.mk.injEq, true_and] at h0
      exact ⟨hs, h1, h2, h3, h0.symm⟩
    · simp [Sponge.spongeInit, hb] at h0

theorem updates_eq (hP : P.Valid) {r : Nat} (hr : 0 < r) (hrw : r ≤ P.width) (hlen : Nat)
    (l : Bits) (d : Byte) (hd : Bits.DelimitedBy l d) (us : List (Bytes × Nat)) :
    ∀ m : Bytes, (∀ u ∈ us, u.2 % 8 = 0 ∧ u.2 ≤ 8 * u.1.length) →
    ∃ m', updates P (habsd P r m hlen d) us = some (List.replicate us.length 0, habsd P r m' hlen d) ∧
      Bits.ofBytes m' = Bits.ofBytes m ++ us.flatMap bitsOf := by
  induction us with
  | nil => intro m _; exact ⟨m, rfl, by simp⟩
  | cons u us ih =>
    intro m h
    obtain ⟨h8, hb⟩ := h u (by simp)
    obtain ⟨m1, l1, d1, h1, h2, h3, h4⟩ := hashUpdate_eq hP hr hrw m hlen l d hd u.1 u.2 hb
    obtain ⟨rfl, rfl, _⟩ := h4 h8
    obtain ⟨m', h5, h6⟩ := ih m1 (fun u hu => h u (by simp [hu]))
    refine ⟨m', ?_, ?_⟩
    · simp only [updates, h1, Option.bind_eq_bind, Option.bind_some, h5, List.length_cons,
        List.replicate_succ]
    · rw [h6, List.append_cancel_right h3, List.flatMap_cons, bitsOf, List.append_assoc]

theorem squeezes_eq (hP : P.Valid) {r : Nat} (hr : 0 < r) (hrw : r ≤ P.width) (m : Bytes) (hlen : Nat)
    (d d' : Byte) (ns : List Nat) (hns : ∀ n ∈ ns, n % 8 = 0) :
    ∀ k, squeezes P ⟨Sponge.sqd P r m d k, hlen, d'⟩ ns =
      some (List.replicate ns.length 0, ⟨Sponge.sqd P r m d (k + ns.sum / 8), hlen, d'⟩,
        (Sponge.out P r m d (k + ns.sum / 8)).drop k) ∧ ns.sum % 8 = 0 := by
  induction ns with
  | nil => intro k; simp [squeezes]
  | cons n ns ih =>
    intro k
    have h8 := hns n (by simp)
    have ih := fun k => ih (fun n hn => hns n (by simp [hn])) k
    obtain ⟨h1, h2⟩ := ih (k + n / 8)
    have hsum : k + (n + ns.sum) / 8 = k + n / 8 + ns.sum / 8 := by omega
    refine ⟨?_, by simp; omega⟩
    simp only [squeezes, hashSqueeze, h8, ne_eq, not_true_eq_false, if_false,
      Sponge.squeeze_sqd hP hr hrw, Option.bind_eq_bind, Option.bind_some, h1, List.length_cons,
      List.replicate_succ, List.sum_cons, hsum, Option.some.injEq, Prod.mk.injEq, true_and]
    rw [Sponge.out_add (P := P) r m d (k + n / 8) (ns.sum / 8),
      List.drop_append_of_le_length (l₁ := Sponge.out P r m d (k + n / 8)) (by simp)]
    congr 1
    rw [List.drop_append_of_le_length (by simp)]
    simp

/-! ## C08 -/

/-- **C08.** Initialise with any accepted parameters and suffix bits `l`; give any byte-aligned updates and
a last update of any bit length; finalise; squeeze more.  All calls succeed, and `HashFinal`'s output
followed by the squeezed bytes is the FIPS 202 sponge function applied to the given message bits followed
by `l`.  Bits beyond the given lengths do not appear in the statement, hence have no influence. -/
theorem C08_hash_is_sponge (hP : P.Valid) (hw : P.width * 8 < 2 ^ 32) (fb : Bits → Bits)
    (hf : ∀ s : Bytes, s.length = P.width → fb (Bits.ofBytes s) = Bits.ofBytes (P.permute s))
    {mem i0 : HashInst} {rate capacity hashbitlen : BitVec 32} {suffix : Byte} {l : Bits}
    (h0 : hashInit P mem rate capacity hashbitlen suffix = (0, i0))
    (hl : Bits.DelimitedBy l suffix)
    (us : List (Bytes × Nat)) (hus : ∀ u ∈ us, u.2 % 8 = 0 ∧ u.2 ≤ 8 * u.1.length)
    (last : Bytes × Nat) (hlast : last.2 ≤ 8 * last.1.length)
    (hh : hashbitlen.toNat % 8 = 0) (ns : List Nat) (hns : ∀ n ∈ ns, n % 8 = 0) :
    ∃ i1 i2 i3 i4 hashval more,
      updates P i0 us = some (List.replicate us.length 0, i1) ∧
      hashUpdate P i1 last.1 last.2 = some (0, i2) ∧
      hashFinal P i2 = some (0, i3, hashval) ∧
      squeezes P i3 ns = some (List.replicate ns.length 0, i4, more) ∧
      Bits.ofBytes hashval = Spec.sponge (8 * P.width) fb rate.toNat
        (us.flatMap bitsOf ++ bitsOf last ++ l) hashbitlen.toNat ∧
      Bits.ofBytes (hashval ++ more) = Spec.sponge (8 * P.width) fb rate.toNat
        (us.flatMap bitsOf ++ bitsOf last ++ l) (hashbitlen.toNat + ns.sum) := by
  obtain ⟨hs, hr, hrw, hr8, rfl⟩ := hashInit_ok hw h0
  generalize rate.toNat / 8 = r at *
  obtain ⟨m1, h1, h2⟩ := updates_eq hP hr hrw hashbitlen.toNat l suffix hl us [] hus
  obtain ⟨m2, l2, d2, h3, h4, h5, -⟩ :=
    hashUpdate_eq hP hr hrw m1 hashbitlen.toNat l suffix hl last.1 last.2 hlast
  obtain ⟨h6, h7⟩ := squeezes_eq hP hr hrw m2 hashbitlen.toNat d2 d2 ns hns (0 + hashbitlen.toNat / 8)
  have hmsg : Bits.ofBytes m2 ++ l2 = us.flatMap bitsOf ++ bitsOf last ++ l := by
    rw [h5, h2]; rfl
  refine ⟨_, _, _, _, Sponge.out P r m2 d2 (hashbitlen.toNat / 8), _, h1, h3, ?_, h6, ?_, ?_⟩
  · simp only [hashFinal, habsd, Sponge.lastFewBits_absd hP hr hrw m2 d2 h4.ne_zero,
      Option.bind_eq_bind, Option.bind_some, if_true, Sponge.squeeze_sqd hP hr hrw]
    simp
  · rw [Sponge.out_spec hP fb hf hr hrw m2 l2 d2 h4, hr8, hmsg]
    congr 1; omega
  · rw [Nat.zero_add, ← Sponge.out_add, Sponge.out_spec hP fb hf hr hrw m2 l2 d2 h4, hr8, hmsg]
    congr 1; omega

/-! ## C09 -/

/-- Calls after initialisation. -/
inductive Call
  | update (data : Bytes) (databitlen : Nat)
  | final
  | squeeze (databitlen : Nat)

/-- The caller's obligation: the buffer holds the announced bits. -/
def Call.ok : Call → Prop
  | .update data n => n ≤ 8 * data.length
  | _ => True

def step (P : SnP) (i : HashInst) : Call → Option (Nat × Bytes × HashInst)
  | .update d n => (hashUpdate P i d n).map fun (c, i) => (c, [], i)
  | .final => (hashFinal P i).map fun (c, i, o) => (c, o, i)
  | .squeeze n => (hashSqueeze P i n).map fun (c, i, o) => (c, o, i)

def run (P : SnP) (i : HashInst) : List Call → Option (List (Nat × Bytes) × HashInst)
  | [] => some ([], i)
  | c :: cs => do
    let (code, out, i) ← step P i c
    let (obs, i) ← run P i cs
    some ((code, out) :: obs, i)

/-- Instances reached from a successful initialisation by any calls with valid buffers. -/
def Reachable (P : SnP) (i : HashInst) : Prop :=
  ∃ mem i0 rate capacity hashbitlen suffix cs obs,
    hashInit P mem rate capacity hashbitlen suffix = (0, i0) ∧ (∀ c ∈ cs, Call.ok c) ∧
    run P i0 cs = some (obs, i)

/-- All reachable instances have one of two forms. -/
def Form (P : SnP) (r : Nat) (i : HashInst) : Prop :=
  (∃ m h d, d ≠ 0 ∧ i = habsd P r m h d) ∨ (∃ m d k h d', i = ⟨Sponge.sqd P r m d k, h, d'⟩)

theorem step_form (hP : P.Valid) {r : Nat} (hr : 0 < r) (hrw : r ≤ P.width) {i : HashInst}
    (h : Form P r i) (c : Call) (hc : c.ok) :
    ∃ code out i', step P i c = some (code, out, i') ∧ Form P r i' := by
  rcases h with ⟨m, hl, d, hd, rfl⟩ | ⟨m, d, k, hl, d', rfl⟩
  · cases c with
    | update data n =>
      obtain ⟨l, hdl⟩ := Bits.exists_delimitedBy d hd
      obtain ⟨m', l', d', h1, h2, _⟩ := hashUpdate_eq hP hr hrw m hl l d hdl data n hc
      exact ⟨0, [], _, by simp [step, h1], .inl ⟨m', hl, d', h2.ne_zero, rfl⟩⟩
    | final =>
      refine ⟨0, _, _, by
        simp only [step, hashFinal, habsd, Sponge.lastFewBits_absd hP hr hrw m d hd,
          Option.bind_eq_bind, Option.bind_some, if_true, Sponge.squeeze_sqd hP hr hrw, Option.map_some]
        rfl, .inr ⟨_, _, _, _, _, rfl⟩⟩
    | squeeze n =>
      by_cases h8 : n % 8 = 0
      · refine ⟨0, _, _, by
          simp only [step, hashSqueeze, habsd, h8, ne_eq, not_true_eq_false, if_false,
            Option.bind_eq_bind, Option.bind_some, Sponge.squeeze_absd hP hr hrw, Option.map_some]
          rfl, .inr ⟨_, _, _, _, _, rfl⟩⟩
      · exact ⟨1, [], habsd P r m hl d, by simp [step, hashSqueeze, h8], .inl ⟨_, _, _, hd, rfl⟩⟩
  · cases c with
    | update data n =>
      have hle : n / 8 ≤ data.length := by simp only [Call.ok] at hc; omega
      refine ⟨1, [], ⟨Sponge.sqd P r m d k, hl, d'⟩, ?_, .inr ⟨_, _, _, _, _, rfl⟩⟩
      simp [step, hashUpdate, SnP.readBuf, hle, Sponge.absorb_late (P := P) (Sponge.sqd_squeezing r m d k)]
    | final =>
      refine ⟨1, [], ⟨Sponge.sqd P r m d k, hl, d'⟩, ?_, .inr ⟨_, _, _, _, _, rfl⟩⟩
      have : Sponge.absorbLastFewBits P (Sponge.sqd P r m d k) d' = some (1, Sponge.sqd P r m d k) := by
        unfold Sponge.absorbLastFewBits; split <;> simp
      simp [step, hashFinal, this]
    | squeeze n =>
      by_cases h8 : n % 8 = 0
      · refine ⟨0, _, _, by
          simp only [step, hashSqueeze, h8, ne_eq, not_true_eq_false, if_false,
            Option.bind_eq_bind, Option.bind_some, Sponge.squeeze_sqd hP hr hrw, Option.map_some]
          rfl, .inr ⟨_, _, _, _, _, rfl⟩⟩
      · exact ⟨1, [], _, by simp [step, hashSqueeze, h8], .inr ⟨m, d, k, hl, d', rfl⟩⟩

theorem run_form (hP : P.Valid) {r : Nat} (hr : 0 < r) (hrw : r ≤ P.width) (cs : List Call)
    (hcs : ∀ c ∈ cs, c.ok) : ∀ {i : HashInst}, Form P r i →
    ∃ obs i', run P i cs = some (obs, i') ∧ Form P r i' := by
  induction cs with
  | nil => intro i h; exact ⟨[], i, rfl, h⟩
  | cons c cs ih =>
    intro i h
    obtain ⟨code, out, i', h1, h2⟩ := step_form hP hr hrw h c (hcs c (by simp))
    obtain ⟨obs, i'', h3, h4⟩ := ih (fun c hc => hcs c (by simp [hc])) h2
    exact ⟨(code, out) :: obs, i'', by simp [run, h1, h3], h4⟩

theorem Reachable.form (hP : P.Valid) (hw : P.width * 8 < 2 ^ 32) {i : HashInst} (h : Reachable P i) :
    ∃ r, 0 < r ∧ r ≤ P.width ∧ Form P r i := by
  obtain ⟨mem, i0, rate, cap, hl, suf, cs, obs, h0, hcs, h1⟩ := h
  obtain ⟨hs, hr, hrw, _, rfl⟩ := hashInit_ok hw h0
  obtain ⟨obs', i', h2, h3⟩ := run_form hP hr hrw cs hcs (i := habsd P _ [] hl.toNat suf)
    (.inl ⟨_, _, _, hs, rfl⟩)
  rw [h1] at h2
  simp only [Option.some.injEq, Prod.mk.injEq] at h2
  exact ⟨_, hr, hrw, h2.2 ▸ h3⟩

/-- **C09**, initialisation: succeeds iff the suffix is not 0 and rate and capacity are valid; a failing call
returns 1 and changes nothing. -/
theorem C09_init_iff (hw : P.width * 8 < 2 ^ 32) (mem : HashInst)
    (rate capacity hashbitlen : BitVec 32) (suffix : Byte) :
    ((hashInit P mem rate capacity hashbitlen suffix).1 = 0 ↔ suffix ≠ 0 ∧
      rate.toNat + capacity.toNat = P.width * 8 ∧ 0 < rate.toNat ∧ rate.toNat % 8 = 0) ∧
    ((hashInit P mem rate capacity hashbitlen suffix).1 ≠ 0 →
      hashInit P mem rate capacity hashbitlen suffix = (1, mem)) := by
  rw [← Sponge.badParams_iff rate capacity hw]
  unfold hashInit Sponge.spongeInit
  by_cases hs : suffix = 0#8
  · simp [hs]
  · cases hb : Sponge.badParams P rate capacity <;> simp [hs]

/-- **C09**, no undefined behaviour: every sequence of calls with valid buffers from a successful
initialisation runs to completion. -/
theorem C09_no_ub (hP : P.Valid) (hw : P.width * 8 < 2 ^ 32) {mem i0 : HashInst}
    {rate capacity hashbitlen : BitVec 32} {suffix : Byte}
    (h0 : hashInit P mem rate capacity hashbitlen suffix = (0, i0)) (cs : List Call)
    (hcs : ∀ c ∈ cs, c.ok) : ∃ obs i, run P i0 cs = some (obs, i) := by
  obtain ⟨hs, hr, hrw, _, rfl⟩ := hashInit_ok hw h0
  obtain ⟨obs, i, h, _⟩ := run_form hP hr hrw cs hcs (i := habsd P _ [] hashbitlen.toNat suffix)
    (.inl ⟨_, _, _, hs, rfl⟩)
  exact ⟨obs, i, h⟩

/-- **C09**, errors: on every reachable instance, in the absorbing phase updates and the first `HashFinal`
succeed, and `HashFinal` starts the squeezing phase; in the squeezing phase updates and `HashFinal` return 1
and change nothing; in any phase a squeeze of a length that is not a multiple of 8 returns 1 and changes
nothing, and one of a multiple of 8 returns 0. -/
theorem C09_errors (hP : P.Valid) (hw : P.width * 8 < 2 ^ 32) {i : HashInst} (h : Reachable P i) :
    (i.sponge.squeezing = false →
      (∀ data n, n ≤ 8 * data.length → ∃ i', hashUpdate P i data n = some (0, i')) ∧
      (∃ i' out, hashFinal P i = some (0, i', out) ∧ i'.sponge.squeezing = true)) ∧
    (i.sponge.squeezing = true →
      (∀ data n, n ≤ 8 * data.length → hashUpdate P i data n = some (1, i)) ∧
      hashFinal P i = some (1, i, [])) ∧
    (∀ n, n % 8 ≠ 0 → hashSqueeze P i n = some (1, i, [])) ∧
    (∀ n, n % 8 = 0 → ∃ i' out, hashSqueeze P i n = some (0, i', out) ∧ i'.sponge.squeezing = true ∧
      8 * out.length = n) := by
  obtain ⟨r, hr, hrw, hform⟩ := h.form hP hw
  refine ⟨?_, ?_, fun n hn => by simp [hashSqueeze, hn], ?_⟩
  · intro hs
    rcases hform with ⟨m, hl, d, hd, rfl⟩ | ⟨m, d, k, hl, d', rfl⟩
    · refine ⟨?_, ?_⟩
      · intro data n hn
        obtain ⟨l, hdl⟩ := Bits.exists_delimitedBy d hd
        obtain ⟨m', l', d', h1, _⟩ := hashUpdate_eq hP hr hrw m hl l d hdl data n hn
        exact ⟨_, h1⟩
      · refine ⟨_, _, by
          simp only [hashFinal, habsd, Sponge.lastFewBits_absd hP hr hrw m d hd,
            Option.bind_eq_bind, Option.bind_some, if_true, Sponge.squeeze_sqd hP hr hrw]
          rfl, rfl⟩
    · simp at hs
  · intro hs
    refine ⟨?_, ?_⟩
    · intro data n hn
      have hle : n / 8 ≤ data.length := by omega
      simp [hashUpdate, SnP.readBuf, hle, Sponge.absorb_late hs]
    · have : Sponge.absorbLastFewBits P i.sponge i.delimitedSuffix = some (1, i.sponge) := by
        unfold Sponge.absorbLastFewBits; split <;> simp [hs]
      simp [hashFinal, this]
  · intro n hn
    rcases hform with ⟨m, hl, d, hd, rfl⟩ | ⟨m, d, k, hl, d', rfl⟩
    · refine ⟨_, _, by
        simp only [hashSqueeze, habsd, hn, ne_eq, not_true_eq_false, if_false,
          Option.bind_eq_bind, Option.bind_some, Sponge.squeeze_absd hP hr hrw]
        rfl, rfl, by simp; omega⟩
    · refine ⟨_, _, by
        simp only [hashSqueeze, hn, ne_eq, not_true_eq_false, if_false,
          Option.bind_eq_bind, Option.bind_some, Sponge.squeeze_sqd hP hr hrw]
        rfl, rfl, by simp; omega⟩

/-! ## C10 (for an arbitrary width-1600 permutation; instantiated with Keccak-f[1600] in `Props/KeccakF`) -/

/-- The six one-call functions are the FIPS 202 functions over the permutation `P`. -/
theorem C10_generic (hP : P.Valid) (hwid : P.width = 200) (fb : Bits → Bits)
    (hf : ∀ s : Bytes, s.length = P.width → fb (Bits.ofBytes s) = Bits.ofBytes (P.permute s))
    (M : Bytes) (n : Nat) :
    (∃ o, SHA3_224 P M = some (0, o) ∧ Bits.ofBytes o = Spec.SHA3 fb 224 (Bits.ofBytes M)) ∧
    (∃ o, SHA3_256 P M = some (0, o) ∧ Bits.ofBytes o = Spec.SHA3 fb 256 (Bits.ofBytes M)) ∧
    (∃ o, SHA3_384 P M = some (0, o) ∧ Bits.ofBytes o = Spec.SHA3 fb 384 (Bits.ofBytes M)) ∧
    (∃ o, SHA3_512 P M = some (0, o) ∧ Bits.ofBytes o = Spec.SHA3 fb 512 (Bits.ofBytes M)) ∧
    (∃ o, SHAKE128 P M n = some (0, o) ∧ Bits.ofBytes o = Spec.SHAKE fb 128 (Bits.ofBytes M) (8 * n)) ∧
    (∃ o, SHAKE256 P M n = some (0, o) ∧ Bits.ofBytes o = Spec.SHAKE fb 256 (Bits.ofBytes M) (8 * n)) := by
  have hw : P.width * 8 < 2 ^ 32 := by omega
  have key : ∀ (rate capacity : BitVec 32) (r : Nat) (l : Bits) (d : Byte) (n : Nat),
      rate.toNat + capacity.toNat = 1600 → rate.toNat = 8 * r → 0 < r → Bits.DelimitedBy l d →
      ∃ o, Sponge.sponge P rate capacity M d n = some (0, o) ∧
        Bits.ofBytes o = Spec.sponge 1600 fb (8 * r) (Bits.ofBytes M ++ l) (8 * n) := by
    intro rate capacity r l d n h1 h2 h3 h4
    have hb : Sponge.badParams P rate capacity = false := by
      rw [Sponge.badParams_iff _ _ hw]; omega
    refine ⟨_, Sponge.sponge_out hP hw hb h2 M d h4.ne_zero n, ?_⟩
    rw [Sponge.out_spec hP fb hf h3 (by omega) M l d h4, hwid]
  exact ⟨key 1152 448 144 [false, true] 0x06 28 rfl rfl (by decide) (by decide),
    key 1088 512 136 [false, true] 0x06 32 rfl rfl (by decide) (by decide),
    key 832 768 104 [false, true] 0x06 48 rfl rfl (by decide) (by decide),
    key 576 1024 72 [false, true] 0x06 64 rfl rfl (by decide) (by decide),
    key 1344 256 168 [true, true, true, true] 0x1F n rfl rfl (by decide) (by decide),
    key 1088 512 136 [true, true, true, true] 0x1F n rfl rfl (by decide) (by decide)⟩

/-- The `Keccak_HashInitialize_*` macros have the parameters of FIPS 202: hashing through the incremental
interface with them gives SHA3-v resp. SHAKEs of the message bits. -/
theorem C10_incremental_generic (hP : P.Valid) (hwid : P.width = 200) (fb : Bits → Bits)
    (hf : ∀ s : Bytes, s.length = P.width → fb (Bits.ofBytes s) = Bits.ofBytes (P.permute s))
    (mem : HashInst)
    (us : List (Bytes × Nat)) (hus : ∀ u ∈ us, u.2 % 8 = 0 ∧ u.2 ≤ 8 * u.1.length)
    (last : Bytes × Nat) (hlast : last.2 ≤ 8 * last.1.length) (n : Nat) (hn : n % 8 = 0) :
    (∀ v, v ∈ [(224, initSHA3_224 P mem), (256, initSHA3_256 P mem), (384, initSHA3_384 P mem),
        (512, initSHA3_512 P mem)] →
      ∃ i0 i1 i2 i3 o, v.2 = (0, i0) ∧ updates P i0 us = some (List.replicate us.length 0, i1) ∧
        hashUpdate P i1 last.1 last.2 = some (0, i2) ∧ hashFinal P i2 = some (0, i3, o) ∧
        Bits.ofBytes o = Spec.SHA3 fb v.1 (us.flatMap bitsOf ++ bitsOf last)) ∧
    (∀ v, v ∈ [(128, initSHAKE128 P mem), (256, initSHAKE256 P mem)] →
      ∃ i0 i1 i2 i3 i4 o, v.2 = (0, i0) ∧ updates P i0 us = some (List.replicate us.length 0, i1) ∧
        hashUpdate P i1 last.1 last.2 = some (0, i2) ∧ hashFinal P i2 = some (0, i3, []) ∧
        hashSqueeze P i3 n = some (0, i4, o) ∧
        Bits.ofBytes o = Spec.SHAKE fb v.1 (us.flatMap bitsOf ++ bitsOf last) n) := by
  have hw : P.width * 8 < 2 ^ 32 := by omega
  have hinit : ∀ (rate capacity hl : BitVec 32) (d : Byte), rate.toNat + capacity.toNat = 1600 →
      0 < rate.toNat → rate.toNat % 8 = 0 → d ≠ 0 →
      ∃ i0, hashInit P mem rate capacity hl d = (0, i0) := by
    intro rate capacity hl d h1 h2 h3 h4
    have := ((C09_init_iff (P := P) hw mem rate capacity hl d).1).2 ⟨h4, by omega, h2, h3⟩
    exact ⟨_, Prod.ext this rfl⟩
  have sha : ∀ (v : Nat) (rate capacity hl : BitVec 32), rate.toNat = 1600 - 2 * v →
      capacity.toNat = 2 * v → 2 * v < 1600 → v % 8 = 0 → hl.toNat = v →
      ∃ i0 i1 i2 i3 o, hashInit P mem rate capacity hl 0x06 = (0, i0) ∧
        updates P i0 us = some (List.replicate us.length 0, i1) ∧
        hashUpdate P i1 last.1 last.2 = some (0, i2) ∧ hashFinal P i2 = some (0, i3, o) ∧
        Bits.ofBytes o = Spec.SHA3 fb v (us.flatMap bitsOf ++ bitsOf last) := by
    intro v rate capacity hl h1 h2 h3 h4 h5
    obtain ⟨i0, h0⟩ := hinit rate capacity hl 0x06 (by omega) (by omega) (by omega) (by decide)
    obtain ⟨i1, i2, i3, i4, o, more, k1, k2, k3, k4, k5, k6⟩ :=
      C08_hash_is_sponge hP hw fb hf h0 (l := [false, true]) (by decide) us hus last hlast (by omega) []
        (by simp)
    refine ⟨i0, i1, i2, i3, o, h0, k1, k2, k3, ?_⟩
    rw [k5, h1, h5, hwid]; rfl
  have shake : ∀ (v : Nat) (rate capacity : BitVec 32), rate.toNat = 1600 - 2 * v →
      capacity.toNat = 2 * v → 2 * v < 1600 → v % 8 = 0 →
      ∃ i0 i1 i2 i3 i4 o, hashInit P mem rate capacity 0 0x1F = (0, i0) ∧
        updates P i0 us = some (List.replicate us.length 0, i1) ∧
        hashUpdate P i1 last.1 last.2 = some (0, i2) ∧ hashFinal P i2 = some (0, i3, []) ∧
        hashSqueeze P i3 n = some (0, i4, o) ∧
        Bits.ofBytes o = Spec.SHAKE fb v (us.flatMap bitsOf ++ bitsOf last) n := by
    intro v rate capacity h1 h2 h3 h4
    obtain ⟨i0, h0⟩ := hinit rate capacity 0 0x1F (by omega) (by omega) (by omega) (by decide)
    obtain ⟨i1, i2, i3, i4, o, more, k1, k2, k3, k4, k5, k6⟩ :=
      C08_hash_is_sponge hP hw fb hf h0 (l := [true, true, true, true]) (by decide) us hus last hlast
        (by decide) [n] (by simpa using hn)
    have ho : o = [] := by
      have := congrArg List.length k5
      simp only [Bits.length_ofBytes, Spec.sponge, Spec.squeeze] at this
      have h0 : (0 : BitVec 32).toNat = 0 := rfl
      rw [h0, List.take_zero] at this
      exact List.eq_nil_of_length_eq_zero (by simpa using this)
    subst ho
    simp only [squeezes, Option.bind_eq_bind] at k4
    cases hsq : hashSqueeze P i3 n with
    | none => rw [hsq] at k4; simp at k4
    | some v =>
      obtain ⟨c, i5, o5⟩ := v
      rw [hsq] at k4
      simp only [Option.bind_some, List.append_nil, Option.some.injEq, Prod.mk.injEq,
        List.length_singleton, List.replicate_one, List.cons.injEq, and_true] at k4
      obtain ⟨rfl, rfl, rfl⟩ := k4
      refine ⟨i0, i1, i2, i3, i5, o5, h0, k1, k2, k3, hsq, ?_⟩
      rw [List.nil_append] at k6
      rw [k6, h1, hwid]
      have h0 : (0 : BitVec 32).toNat = 0 := rfl
      rw [h0]
      simp only [List.sum_cons, List.sum_nil, Nat.zero_add, Nat.add_zero]
      rfl
  refine ⟨?_, ?_⟩
  · intro v hv
    simp only [List.mem_cons, List.not_mem_nil, or_false] at hv
    rcases hv with rfl | rfl | rfl | rfl
    · exact sha 224 1152 448 224 rfl rfl (by decide) (by decide) rfl
    · exact sha 256 1088 512 256 rfl rfl (by decide) (by decide) rfl
    · exact sha 384 832 768 384 rfl rfl (by decide) (by decide) rfl
    · exact sha 512 576 1024 512 rfl rfl (by decide) (by decide) rfl
  · intro v hv
    simp only [List.mem_cons, List.not_mem_nil, or_false] at hv
    rcases hv with rfl | rfl
    · exact shake 128 1344 256 rfl rfl (by decide) (by decide)
    · exact shake 256 1088 512 rfl rfl (by decide) (by decide)

section Examples

private def mem : HashInst := ⟨⟨[], 0, 3, true⟩, 5, 0⟩

/-- accepted parameters with a suffix of 7 bits -/
example : (hashInit Toy.snp mem 144 56 64 0xE5).1 = 0 := by decide
/-- a bit string of 13 bits: one byte plus 5 bits; the three high bits of the last byte are set but unused -/
example : bitsOf ([0x53, 0xEA], 13) =
    [true, true, false, false, true, false, true, false, false, true, false, true, false] := by decide
/-- both branches of the suffix concatenation are taken -/
example : (hashUpdate Toy.snp (hashInit Toy.snp mem 144 56 64 0x06).2 [0x53, 0xEA] 13).isSome = true ∧
    (hashUpdate Toy.snp (hashInit Toy.snp mem 144 56 64 0xE5).2 [0x53, 0xEA] 13).isSome = true := by
  decide +kernel

end Examples

end KeccakHash

namespace TurboSHAKE

open Sponge (absd sqd out)

variable {P : SnP}

theorem init_iff (hwid : P.width = 200) (mem : SpongeInst) (capacity : BitVec 32) :
    (capacity.toNat ≤ 512 ∧ capacity.toNat % 8 = 0 →
      init P mem capacity = (0, absd P (200 - capacity.toNat / 8) [])) ∧
    (¬ (capacity.toNat ≤ 512 ∧ capacity.toNat % 8 = 0) → init P mem capacity = (1, mem)) := by
  have e512 : (512 : BitVec 32).toNat = 512 := rfl
  have e8 : (capacity % 8 : BitVec 32).toNat = capacity.toNat % 8 := by
    rw [BitVec.toNat_umod]; rfl
  have hcond : (512 < capacity ∨ capacity % 8 ≠ 0) ↔ ¬ (capacity.toNat ≤ 512 ∧ capacity.toNat % 8 = 0) := by
    rw [BitVec.lt_def, e512, Ne, ← BitVec.toNat_inj, e8]
    have : (0 : BitVec 32).toNat = 0 := rfl
    rw [this]; omega
  unfold init
  refine ⟨fun h => ?_, fun h => ?_⟩
  · rw [if_neg (by rw [hcond]; simpa using h)]
    have hlt := capacity.isLt
    have er : (1600 - capacity : BitVec 32).toNat = 1600 - capacity.toNat := by
      rw [BitVec.toNat_sub]
      have : (1600 : BitVec 32).toNat = 1600 := rfl
      rw [this]; omega
    apply Sponge.spongeInit_absd
    · rw [Sponge.badParams_iff _ _ (by omega), er, hwid]; omega
    · rw [er]; omega
  · rw [if_pos (hcond.2 h)]

/-- **C11** (for an arbitrary width-1600 permutation; instantiated with Keccak-p[1600, 12] in
`Props/KeccakF`): `TurboSHAKE` returns 0 exactly when the capacity is at most 512 and a multiple of 8 and the
domain byte is not 0; it then outputs the sponge function over the message followed by the domain bits. -/
theorem C11_generic (hP : P.Valid) (hwid : P.width = 200) (fb : Bits → Bits)
    (hf : ∀ s : Bytes, s.length = P.width → fb (Bits.ofBytes s) = Bits.ofBytes (P.permute s))
    (stack : SpongeInst) (capacity : BitVec 32) (M : Bytes) (domain : Byte) (n : Nat) :
    (∀ l, Bits.DelimitedBy l domain → capacity.toNat ≤ 512 → capacity.toNat % 8 = 0 →
      ∃ o, turboSHAKE P stack capacity M domain n = some (0, o) ∧
        Bits.ofBytes o = Spec.TurboSHAKE fb capacity.toNat (Bits.ofBytes M) l (8 * n)) ∧
    (¬ (capacity.toNat ≤ 512 ∧ capacity.toNat % 8 = 0 ∧ domain ≠ 0) →
      turboSHAKE P stack capacity M domain n = some (1, [])) := by
  obtain ⟨h1, h2⟩ := init_iff hwid stack capacity
  refine ⟨?_, ?_⟩
  · intro l hl hc hc8
    have hr : 0 < 200 - capacity.toNat / 8 := by omega
    have hrw : 200 - capacity.toNat / 8 ≤ P.width := by omega
    refine ⟨out P (200 - capacity.toNat / 8) M domain n, ?_, ?_⟩
    · unfold turboSHAKE
      rw [h1 ⟨hc, hc8⟩]
      simp [absorb, absorbDomainSeparationByte, squeeze, Sponge.absorb_absd hP hr hrw,
        Sponge.lastFewBits_absd hP hr hrw _ _ hl.ne_zero, Sponge.squeeze_sqd hP hr hrw]
    · rw [Sponge.out_spec hP fb hf hr hrw M l domain hl, hwid, Spec.TurboSHAKE]
      congr 1; omega
  · intro h
    by_cases hc : capacity.toNat ≤ 512 ∧ capacity.toNat % 8 = 0
    · have hr : 0 < 200 - capacity.toNat / 8 := by omega
      have hrw : 200 - capacity.toNat / 8 ≤ P.width := by omega
      have hd : domain = 0 := by
        by_contra hd; exact h ⟨hc.1, hc.2, hd⟩
      unfold turboSHAKE
      rw [h1 hc]
      simp [absorb, absorbDomainSeparationByte, Sponge.absorb_absd hP hr hrw, hd,
        Sponge.absorbLastFewBits]
    · unfold turboSHAKE
      rw [h2 hc]; simp

/-- absorb in pieces -/
def absorbPieces (P : SnP) (i : SpongeInst) : List Bytes → Option SpongeInst
  | [] => some i
  | p :: ps => (absorb P i p).bind fun (c, i) => if c = 0 then absorbPieces P i ps else none

/-- squeeze in pieces -/
def squeezePieces (P : SnP) (i : SpongeInst) : List Nat → Option Bytes
  | [] => some []
  | n :: ns => (squeeze P i n).bind fun (c, i, o) =>
      if c = 0 then (squeezePieces P i ns).map (o ++ ·) else none

/-- **C11**, chunking: any split of the message and of the output through the incremental functions gives the
bytes of the one-call function. -/
theorem C11_incremental (hP : P.Valid) (hwid : P.width = 200) (stack mem : SpongeInst)
    (capacity : BitVec 32) (hc : capacity.toNat ≤ 512) (hc8 : capacity.toNat % 8 = 0)
    (pieces : List Bytes) (domain : Byte) (hd : domain ≠ 0) (ns : List Nat) :
    ∃ i0 i1 i2 o, init P mem capacity = (0, i0) ∧ absorbPieces P i0 pieces = some i1 ∧
      absorbDomainSeparationByte P i1 domain = some (0, i2) ∧ squeezePieces P i2 ns = some o ∧
      turboSHAKE P stack capacity pieces.flatten domain ns.sum = some (0, o) := by
  have hr : 0 < 200 - capacity.toNat / 8 := by omega
  have hrw : 200 - capacity.toNat / 8 ≤ P.width := by omega
  have h1 : ∀ (ps : List Bytes) (m : Bytes), absorbPieces P (absd P (200 - capacity.toNat / 8) m) ps =
      some (absd P (200 - capacity.toNat / 8) (m ++ ps.flatten)) := by
    intro ps
    induction ps with
    | nil => intro m; simp [absorbPieces]
    | cons p ps ih => intro m; simp [absorbPieces, absorb, Sponge.absorb_absd hP hr hrw, ih]
  have h2 : ∀ (ns : List Nat) (m : Bytes) (k : Nat),
      squeezePieces P (sqd P (200 - capacity.toNat / 8) m domain k) ns =
        some ((out P (200 - capacity.toNat / 8) m domain (k + ns.sum)).drop k) := by
    intro ns
    induction ns with
    | nil => intro m k; simp [squeezePieces]
    | cons n ns ih =>
      intro m k
      simp only [squeezePieces, squeeze, Sponge.squeeze_sqd hP hr hrw, Option.bind_some, if_true, ih,
        Option.map_some, List.sum_cons, Option.some.injEq]
      rw [← Nat.add_assoc, Sponge.out_add (P := P) _ m domain (k + n) ns.sum,
        List.drop_append_of_le_length (l₁ := out P (200 - capacity.toNat / 8) m domain (k + n)) (by simp)]
      congr 1
      rw [List.drop_append_of_le_length (by simp)]
      simp
  refine ⟨_, _, _, _, (init_iff hwid mem capacity).1 ⟨hc, hc8⟩, h1 pieces [],
    Sponge.lastFewBits_absd hP hr hrw _ domain hd, h2 ns _ 0, ?_⟩
  unfold turboSHAKE
  rw [(init_iff hwid stack capacity).1 ⟨hc, hc8⟩]
  simp [absorb, absorbDomainSeparationByte, squeeze, Sponge.absorb_absd hP hr hrw,
    Sponge.lastFewBits_absd hP hr hrw _ _ hd, Sponge.squeeze_sqd hP hr hrw]

end TurboSHAKE
