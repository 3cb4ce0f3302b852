import Verif.Proofs.CShake
import Verif.Props.Toy

/-!
# Properties C12-C14, C16, C17: SP 800-185 (encodings, cSHAKE, KMAC, TupleHash)

`P` is any SnP of width 1600 bits obeying its contract, and `f` the bit-level function it computes; the
concrete instance is in `Verif/Props/KeccakF`.  `Bits.CleanAt buf n` says that the unused bits of the last
byte of an `n`-bit string are zero: the code absorbs that whole byte (DESIGN.md, finding F4).
-/

namespace SP800185
open Spec

variable {P : SnP}

/-! ## C12 -/

/-- **C12.** For every 64-bit value, `left_encode`/`right_encode` produce the standard's encodings. -/
theorem C12_encode_is_SP800185 (v : BitVec 64) :
    Bits.ofBytes (leftEncode v) = left_encode v.toNat ∧
    Bits.ofBytes (rightEncode v) = right_encode v.toNat :=
  ⟨ofBytes_leftEncode v, ofBytes_rightEncode v⟩

/-- **C12.** The encodings fit in the `sizeof(BitLength)+1` bytes of `encbuf`, and the number `n` of value
bytes is the smallest positive integer with `v < 2^(8n)`. -/
theorem C12_encode_minimal (v : BitVec 64) :
    ∃ n, (leftEncode v).length = n + 1 ∧ (rightEncode v).length = n + 1 ∧ 1 ≤ n ∧ n ≤ 8 ∧
      v.toNat < 2 ^ (8 * n) ∧ ∀ k, 1 ≤ k → v.toNat < 2 ^ (8 * k) → n ≤ k := by
  have hp : ∀ k, (2 : Nat) ^ (8 * k) = 256 ^ k := fun k => by rw [Nat.pow_mul]
  have hle := encodeLen_le v
  refine ⟨encodeLen v, length_leftEncode v, length_rightEncode v, hle.1, hle.2, ?_, ?_⟩
  · rw [hp]
    exact (base256_length_le_iff _ _ (by omega)).1 (by rw [encodeLen_eq])
  · intro k hk h
    rw [hp] at h
    rw [encodeLen_eq]
    exact (base256_length_le_iff _ _ hk).2 h

/-- **C12.** Unique decoding: the left encoding is prefix-free and the right encoding suffix-free. -/
theorem C12_encode_unique (v w : BitVec 64) (a b : Bytes) :
    (leftEncode v ++ a = leftEncode w ++ b → v = w ∧ a = b) ∧
    (a ++ rightEncode v = b ++ rightEncode w → v = w ∧ a = b) :=
  ⟨leftEncode_prefix, rightEncode_suffix⟩

example : leftEncode 0x1234 = [2, 0x12, 0x34] ∧ rightEncode 0 = [0, 1] ∧
    leftEncode 0xFFFFFFFFFFFFFFFF = [8, 255, 255, 255, 255, 255, 255, 255, 255] := by decide

/-! ## C13 -/

/-- The bit string given by a buffer and a bit length. -/
def bitsOf (u : Bytes × Nat) : Bits := (Bits.ofBytes u.1).take u.2

/-- Successive `cSHAKE_Update` calls. -/
def cUpdates (P : SnP) (i : CShakeInst) : List (Bytes × Nat) → Option (List Nat × CShakeInst)
  | [] => some ([], i)
  | u :: us => do
    let (c, i) ← cUpdate P i u.1 u.2
    let (cs, i) ← cUpdates P i us
    some (c :: cs, i)

/-- Successive `cSHAKE_Squeeze` calls. -/
def cSqueezes (P : SnP) (i : CShakeInst) : List Nat → Option (List Nat × CShakeInst × Bytes)
  | [] => some ([], i, [])
  | n :: ns => do
    let (c, i, o) ← cSqueeze P i n
    let (cs, i, os) ← cSqueezes P i ns
    some (c :: cs, i, o ++ os)

theorem cUpdates_eq (hP : P.Valid) {r : Nat} (hr : 0 < r) (hrw : r ≤ P.width) (L : Nat) (e : Bool)
    (us : List (Bytes × Nat)) :
    ∀ m : Bytes, (∀ u ∈ us, u.2 % 8 = 0 ∧ u.2 ≤ 8 * u.1.length) →
    ∃ m', cUpdates P (cabsd P r L m e) us = some (List.replicate us.length 0, cabsd P r L m' e) ∧
      Bits.ofBytes m' = Bits.ofBytes m ++ us.flatMap bitsOf := by
  induction us with
  | nil => intro m _; exact ⟨m, rfl, by simp⟩
  | cons u us ih =>
    intro m h
    obtain ⟨h8, hb⟩ := h u (by simp)
    obtain ⟨m', h5, h6⟩ := ih (m ++ u.1.take (u.2 / 8)) (fun u hu => h u (by simp [hu]))
    refine ⟨m', ?_, ?_⟩
    · simp only [cUpdates, cUpdate_aligned hP hr hrw L m e u.1 u.2 h8 hb, Option.bind_eq_bind,
        Option.bind_some, h5, List.length_cons, List.replicate_succ]
    · have e8 : 8 * (u.2 / 8) = u.2 := by omega
      rw [h6, List.flatMap_cons, bitsOf, Bits.ofBytes_append, ← Bits.take_ofBytes, e8, List.append_assoc]

theorem cSqueezes_eq (hP : P.Valid) {r : Nat} (hr : 0 < r) (hrw : r ≤ P.width) (m : Bytes)
    (d : Byte) (i : CShakeInst) (ns : List Nat) (hns : ∀ n ∈ ns, n % 8 = 0 ∧ n + 7 < 2 ^ 64) :
    ∀ k, cSqueezes P (csqd P r m d k i) ns =
      some (List.replicate ns.length 0, csqd P r m d (k + ns.sum / 8) i,
        (Sponge.out P r m d (k + ns.sum / 8)).drop k) ∧ ns.sum % 8 = 0 := by
  induction ns with
  | nil => intro k; simp [cSqueezes]
  | cons n ns ih =>
    intro k
    obtain ⟨h8, h64⟩ := hns n (by simp)
    have ih := fun k => ih (fun n hn => hns n (by simp [hn])) k
    obtain ⟨h1, h2⟩ := ih (k + n / 8)
    have hsum : k + (n + ns.sum) / 8 = k + n / 8 + ns.sum / 8 := by omega
    refine ⟨?_, by simp; omega⟩
    simp only [cSqueezes, cSqueeze_aligned hP hr hrw m d k i n h8 h64, Option.bind_eq_bind,
      Option.bind_some, h1, List.length_cons, List.replicate_succ, List.sum_cons, hsum,
      Option.some.injEq, Prod.mk.injEq, true_and]
    rw [Sponge.out_add (P := P) r m d (k + n / 8) (ns.sum / 8),
      List.drop_append_of_le_length (l₁ := Sponge.out P r m d (k + n / 8)) (by simp)]
    congr 1
    rw [List.drop_append_of_le_length (by simp)]
    simp

section
variable (hP : P.Valid) (hw : P.width = 200) (f : Bits → Bits)
  (hf : ∀ s : Bytes, s.length = 200 → f (Bits.ofBytes s) = Bits.ofBytes (P.permute s))
include hP hw hf

/-- `cSHAKE_Final` with a fixed output length. -/
theorem ready_fixed {r : Nat} (hr : 0 < r) (hrw : r ≤ P.width) {L : Nat} {e : Bool} {i : CShakeInst}
    {msg : Bits} (R : Ready P r L e i msg) (hL : L ≠ 0) (hL64 : L + 7 < 2 ^ 64) :
    ∃ i' o, cFinal P i = some (0, i', o) ∧ i'.phase = .final ∧
      Represents o (Spec.sponge 1600 f (8 * r) (msg ++ sufBits e) L) := by
  obtain ⟨j, o, h1, -, -, h3⟩ := cSqueeze_any hP hr hrw R.m R.d 0 i L hL64
  refine ⟨{ j with phase := .final }, o, ?_, rfl, ?_⟩
  · rw [R.fin]
    unfold cSwitch
    have h1' : cSqueeze P { i with sponge := Sponge.sqd P r R.m R.d 0, phase := .squeezing } L =
      some (0, j, o) := h1
    rw [R.len] at h1'
    simp [R.len, hL, h1']
  · have hs : (Bits.ofBytes (Sponge.out P r R.m R.d (0 + (L + 7) / 8))).take L =
        Spec.sponge 1600 f (8 * r) (msg ++ sufBits e) L := by
      rw [Sponge.out_spec_bits hP f (by rw [hw]; exact hf) hr hrw _ _ _ R.delim _ L (by omega), R.bits, hw]
    simp only [Nat.mul_zero, List.drop_zero] at h3
    unfold Represents
    rw [h3, hs]
    have hl : (Spec.sponge 1600 f (8 * r) (msg ++ sufBits e) L).length = L := by
      rw [← hs]; simp; omega
    rw [hl]

/-- `cSHAKE_Final` in the extendable-output form, followed by squeezes. -/
theorem ready_xof {r : Nat} (hr : 0 < r) (hrw : r ≤ P.width) {e : Bool} {i : CShakeInst}
    {msg : Bits} (R : Ready P r 0 e i msg) (ns : List Nat) (hns : ∀ n ∈ ns, n % 8 = 0 ∧ n + 7 < 2 ^ 64)
    (nl : Nat) (hnl : nl + 7 < 2 ^ 64) :
    ∃ i1 i2 i3 o1 o2, cFinal P i = some (0, i1, []) ∧
      cSqueezes P i1 ns = some (List.replicate ns.length 0, i2, o1) ∧
      cSqueeze P i2 nl = some (0, i3, o2) ∧
      Represents (o1 ++ o2) (Spec.sponge 1600 f (8 * r) (msg ++ sufBits e) (ns.sum + nl)) := by
  obtain ⟨h1, h2⟩ := cSqueezes_eq hP hr hrw R.m R.d i ns hns 0
  obtain ⟨j, o, h3, -, -, h4⟩ := cSqueeze_any hP hr hrw R.m R.d (0 + ns.sum / 8) i nl hnl
  refine ⟨csqd P r R.m R.d 0 i, _, _, _, _, ?_, h1, h3, ?_⟩
  · rw [R.fin]; simp [cSwitch, R.len, csqd]
  · have hsum : 8 * (0 + ns.sum / 8) = ns.sum := by omega
    have hs : (Bits.ofBytes (Sponge.out P r R.m R.d (0 + ns.sum / 8 + (nl + 7) / 8))).take (ns.sum + nl) =
        Spec.sponge 1600 f (8 * r) (msg ++ sufBits e) (ns.sum + nl) := by
      rw [Sponge.out_spec_bits hP f (by rw [hw]; exact hf) hr hrw _ _ _ R.delim _ _ (by omega), R.bits, hw]
    have hl : (Spec.sponge 1600 f (8 * r) (msg ++ sufBits e) (ns.sum + nl)).length = ns.sum + nl := by
      rw [← hs]; simp; omega
    unfold Represents
    rw [hl, ← hs, Bits.ofBytes_append, h4, ← List.append_assoc, List.take_add]
    congr 1
    · congr 1
      · rw [List.drop_zero, ← Sponge.out_take _ _ _ _ _ (Nat.le_add_right (0 + ns.sum / 8) ((nl + 7) / 8)),
          ← Bits.take_ofBytes, hsum]
      · rw [hsum]
    · congr 1; omega

omit hP hw hf in
/-- The padded prefix and suffix chosen by `cSHAKE_Initialize` are those of the standard. -/
theorem cSHAKE_string {sec : Nat} (hsec : sec = 128 ∨ sec = 256) (name : Bytes) (nb : Nat) (cust : Bytes)
    (cb : Nat) (hnb : nb % 8 = 0) (hn : nb ≤ 8 * name.length) (hn64 : nb < 2 ^ 64)
    (hc : cb ≤ 8 * cust.length) (hc64 : cb + 7 < 2 ^ 64) (hclean : Bits.CleanAt cust cb) (X : Bits) (L : Nat) :
    Spec.sponge 1600 f (8 * rateBytes sec)
      (Bits.ofBytes (if nb = 0 ∧ cb = 0 then [] else cPrefix (rateBytes sec) name nb cust cb) ++ X ++
        sufBits (decide (nb = 0 ∧ cb = 0))) L =
    Spec.cSHAKE f sec X L (bitsOf (name, nb)) (bitsOf (cust, cb)) := by
  obtain ⟨hr, hr2, hr8, hr64⟩ := rateBytes_eq hsec
  have hN : (bitsOf (name, nb)).length = nb := by simp [bitsOf]; omega
  have hS : (bitsOf (cust, cb)).length = cb := by simp [bitsOf]; omega
  have hcond : (bitsOf (name, nb) = [] ∧ bitsOf (cust, cb) = []) ↔ (nb = 0 ∧ cb = 0) := by
    rw [← List.length_eq_zero_iff, ← List.length_eq_zero_iff, hN, hS]
  unfold Spec.cSHAKE
  by_cases h0 : nb = 0 ∧ cb = 0
  · rw [if_pos (hcond.2 h0)]
    simp [h0, Spec.SHAKE, KECCAK, hr8, sufBits]
  · rw [if_neg h0, if_neg (fun h => h0 (hcond.1 h))]
    simp only [h0, KECCAK, hr8, sufBits, decide_false, Bool.false_eq_true, if_false]
    rw [cPrefix_spec hr hr64 _ _ _ _ hnb hn hn64 hc hc64 hclean]
    rfl

variable {sec : Nat} (hsec : sec = 128 ∨ sec = 256) (name : Bytes) (nb : Nat) (cust : Bytes) (cb : Nat)
  (hnb : nb % 8 = 0) (hn : nb ≤ 8 * name.length) (hn64 : nb < 2 ^ 64)
  (hc : cb ≤ 8 * cust.length) (hc64 : cb + 7 < 2 ^ 64) (hclean : Bits.CleanAt cust cb)
include hsec hnb hn hn64 hc hc64 hclean

/-- Initialise, byte-aligned updates, and a last update of any bit length. -/
theorem cSHAKE_ready (mem : CShakeInst) (L : Nat)
    (us : List (Bytes × Nat)) (hus : ∀ u ∈ us, u.2 % 8 = 0 ∧ u.2 ≤ 8 * u.1.length)
    (last : Bytes × Nat) (hlast : last.2 ≤ 8 * last.1.length) :
    ∃ i0 i1 i2, cInit P sec mem L name nb cust cb = some (0, i0) ∧
      cUpdates P i0 us = some (List.replicate us.length 0, i1) ∧
      cUpdate P i1 last.1 last.2 = some (0, i2) ∧
      Nonempty (Ready P (rateBytes sec) L (decide (nb = 0 ∧ cb = 0)) i2
        (Bits.ofBytes (if nb = 0 ∧ cb = 0 then [] else cPrefix (rateBytes sec) name nb cust cb) ++
          (us.flatMap bitsOf ++ bitsOf last))) := by
  obtain ⟨hr, hr2, -, -⟩ := rateBytes_eq hsec
  have hrw : rateBytes sec ≤ P.width := by omega
  have hi := cInit_eq hP hw hsec mem L name nb cust cb hnb hn hc hc64
  have hi' : cInit P sec mem L name nb cust cb = some (0, cabsd P (rateBytes sec) L
      (if nb = 0 ∧ cb = 0 then [] else cPrefix (rateBytes sec) name nb cust cb)
      (decide (nb = 0 ∧ cb = 0))) := by
    rw [hi]; split <;> simp [*]
  obtain ⟨m1, h1, h2⟩ := cUpdates_eq hP hr hrw L (decide (nb = 0 ∧ cb = 0)) us
    (if nb = 0 ∧ cb = 0 then [] else cPrefix (rateBytes sec) name nb cust cb) hus
  obtain ⟨i2, h3, h4⟩ := cUpdate_ready hP hr hrw L m1 (decide (nb = 0 ∧ cb = 0)) last.1 last.2 hlast
  refine ⟨_, _, i2, hi', h1, h3, ?_⟩
  rw [h2, List.append_assoc] at h4
  exact h4

/-- **C13.** cSHAKE with a fixed output length `L`: for every function-name and customisation string, every
partition of the message into byte-aligned updates followed by one of any bit length, all calls succeed and
the output is SP 800-185 cSHAKE (which is SHAKE when both strings are empty). -/
theorem C13_cSHAKE (mem : CShakeInst) (L : Nat) (hL : L ≠ 0) (hL64 : L + 7 < 2 ^ 64)
    (us : List (Bytes × Nat)) (hus : ∀ u ∈ us, u.2 % 8 = 0 ∧ u.2 ≤ 8 * u.1.length)
    (last : Bytes × Nat) (hlast : last.2 ≤ 8 * last.1.length) :
    ∃ i0 i1 i2 i3 out, cInit P sec mem L name nb cust cb = some (0, i0) ∧
      cUpdates P i0 us = some (List.replicate us.length 0, i1) ∧
      cUpdate P i1 last.1 last.2 = some (0, i2) ∧
      cFinal P i2 = some (0, i3, out) ∧
      Represents out (Spec.cSHAKE f sec (us.flatMap bitsOf ++ bitsOf last) L
        (bitsOf (name, nb)) (bitsOf (cust, cb))) := by
  obtain ⟨hr, hr2, -, -⟩ := rateBytes_eq hsec
  obtain ⟨i0, i1, i2, h0, h1, h2, ⟨R⟩⟩ := cSHAKE_ready hP hw f hf hsec name nb cust cb hnb hn hn64 hc hc64 hclean
    mem L us hus last hlast
  obtain ⟨i3, o, h3, -, h4⟩ := ready_fixed hP hw f hf hr (by omega) R hL hL64
  refine ⟨i0, i1, i2, i3, o, h0, h1, h2, h3, ?_⟩
  rwa [cSHAKE_string f hsec name nb cust cb hnb hn hn64 hc hc64 hclean] at h4

/-- **C13.** The extendable-output form (`outputBitLen = 0`): any byte-aligned squeezes followed by one of
any bit length give a prefix of the cSHAKE output. -/
theorem C13_cSHAKE_xof (mem : CShakeInst)
    (us : List (Bytes × Nat)) (hus : ∀ u ∈ us, u.2 % 8 = 0 ∧ u.2 ≤ 8 * u.1.length)
    (last : Bytes × Nat) (hlast : last.2 ≤ 8 * last.1.length)
    (ns : List Nat) (hns : ∀ n ∈ ns, n % 8 = 0 ∧ n + 7 < 2 ^ 64) (nl : Nat) (hnl : nl + 7 < 2 ^ 64) :
    ∃ i0 i1 i2 i3 i4 i5 o1 o2, cInit P sec mem 0 name nb cust cb = some (0, i0) ∧
      cUpdates P i0 us = some (List.replicate us.length 0, i1) ∧
      cUpdate P i1 last.1 last.2 = some (0, i2) ∧
      cFinal P i2 = some (0, i3, []) ∧
      cSqueezes P i3 ns = some (List.replicate ns.length 0, i4, o1) ∧
      cSqueeze P i4 nl = some (0, i5, o2) ∧
      Represents (o1 ++ o2) (Spec.cSHAKE f sec (us.flatMap bitsOf ++ bitsOf last) (ns.sum + nl)
        (bitsOf (name, nb)) (bitsOf (cust, cb))) := by
  obtain ⟨hr, hr2, -, -⟩ := rateBytes_eq hsec
  obtain ⟨i0, i1, i2, h0, h1, h2, ⟨R⟩⟩ := cSHAKE_ready hP hw f hf hsec name nb cust cb hnb hn hn64 hc hc64 hclean
    mem 0 us hus last hlast
  obtain ⟨i3, i4, i5, o1, o2, h3, h4, h5, h6⟩ := ready_xof hP hw f hf hr (by omega) R ns hns nl hnl
  refine ⟨i0, i1, i2, i3, i4, i5, o1, o2, h0, h1, h2, h3, h4, h5, ?_⟩
  rwa [cSHAKE_string f hsec name nb cust cb hnb hn hn64 hc hc64 hclean] at h6

/-- **C13.** The one-call function. -/
theorem C13_cSHAKE_one_call (stack : CShakeInst) (L : Nat) (hL : L ≠ 0) (hL64 : L + 7 < 2 ^ 64)
    (input : Bytes) (n : Nat) (hin : n ≤ 8 * input.length) :
    ∃ out, cSHAKE P sec stack input n L name nb cust cb = some (0, out) ∧
      Represents out (Spec.cSHAKE f sec (bitsOf (input, n)) L (bitsOf (name, nb)) (bitsOf (cust, cb))) := by
  obtain ⟨i0, i1, i2, i3, out, h0, h1, h2, h3, h4⟩ := C13_cSHAKE hP hw f hf hsec name nb cust cb hnb hn hn64
    hc hc64 hclean stack L hL hL64 [] (by simp) (input, n) hin
  simp only [cUpdates, Option.some.injEq, Prod.mk.injEq] at h1
  obtain ⟨-, rfl⟩ := h1
  refine ⟨out, ?_, by simpa using h4⟩
  simp [cSHAKE, hL, h0, h2, h3]

end

/-- A width-1600 SnP for the examples (not a cryptographic permutation). -/
def toy1600 : SnP := { width := 200, permute := Toy.perm, fast := none }

theorem toy1600_valid : toy1600.Valid where
  permute_len := by
    intro s hs
    have : s.length = 200 := hs
    simp only [toy1600, Toy.perm, List.length_mapIdx, List.length_append, List.length_drop, List.length_take]
    omega
  fast_ok := by intro F hF; simp [toy1600] at hF

/-- Every byte-level permutation is computed by some bit-level function. -/
theorem exists_bitLevel (P : SnP) :
    ∃ f : Bits → Bits, ∀ s : Bytes, s.length = 200 → f (Bits.ofBytes s) = Bits.ofBytes (P.permute s) := by
  classical
  refine ⟨fun b => if h : ∃ s : Bytes, Bits.ofBytes s = b then Bits.ofBytes (P.permute h.choose) else [], ?_⟩
  intro s _
  have h : ∃ s' : Bytes, Bits.ofBytes s' = Bits.ofBytes s := ⟨s, rfl⟩
  simp only [h, dif_pos]
  rw [Bits.ofBytes_injective h.choose_spec]

-- hypotheses met: 13-bit message after a byte-aligned one, 11-bit customisation string, 100-bit output
example (mem : CShakeInst) : ∃ f : Bits → Bits, ∃ i0 i1 i2 i3 out,
    cInit toy1600 128 mem 100 [0x41] 8 [0x53, 0x05] 11 = some (0, i0) ∧
    cUpdates toy1600 i0 [([1, 2, 3], 24)] = some ([0], i1) ∧
    cUpdate toy1600 i1 [0xFF, 0xFF] 13 = some (0, i2) ∧ cFinal toy1600 i2 = some (0, i3, out) ∧
    Represents out (Spec.cSHAKE f 128 (bitsOf ([1, 2, 3], 24) ++ bitsOf ([0xFF, 0xFF], 13)) 100
      (bitsOf ([0x41], 8)) (bitsOf ([0x53, 0x05], 11))) := by
  obtain ⟨f, hf⟩ := exists_bitLevel toy1600
  refine ⟨f, ?_⟩
  have := C13_cSHAKE toy1600_valid rfl f hf (Or.inl rfl) [0x41] 8 [0x53, 0x05] 11 (by decide) (by decide)
    (by decide) (by decide) (by decide) (by unfold Bits.CleanAt; decide) mem 100 (by decide) (by decide)
    [([1, 2, 3], 24)] (by simp) ([0xFF, 0xFF], 13) (by decide)
  simpa using this

/-! ## C14: KMAC -/

/-- Successive `KMAC_Update` calls. -/
def kUpdates (P : SnP) (i : KmacInst) : List (Bytes × Nat) → Option (List Nat × KmacInst)
  | [] => some ([], i)
  | u :: us => do
    let (c, i) ← kmacUpdate P i u.1 u.2
    let (cs, i) ← kUpdates P i us
    some (c :: cs, i)

/-- Successive `KMAC_Squeeze` calls. -/
def kSqueezes (P : SnP) (i : KmacInst) : List Nat → Option (List Nat × KmacInst × Bytes)
  | [] => some ([], i, [])
  | n :: ns => do
    let (c, i, o) ← kmacSqueeze P i n
    let (cs, i, os) ← kSqueezes P i ns
    some (c :: cs, i, o ++ os)

theorem kSqueezes_eq (ns : List Nat) : ∀ (i j : CShakeInst) (L : Nat) (cs : List Nat) (o : Bytes),
    cSqueezes P i ns = some (cs, j, o) → kSqueezes P ⟨i, L⟩ ns = some (cs, ⟨j, L⟩, o) := by
  induction ns with
  | nil => intro i j L cs o h; simp [cSqueezes] at h; simp [kSqueezes, h]
  | cons n ns ih =>
    intro i j L cs o h
    simp only [cSqueezes, Option.bind_eq_bind, Option.bind_eq_some_iff, Option.some.injEq,
      Prod.mk.injEq] at h
    obtain ⟨⟨c, i1, o1⟩, h1, ⟨cs2, j2, o2⟩, h2, rfl, rfl, rfl⟩ := h
    simp [kSqueezes, kmacSqueeze, h1, ih _ _ L _ _ h2]

theorem kUpdates_eq (hP : P.Valid) {r : Nat} (hr : 0 < r) (hrw : r ≤ P.width) (L : Nat) (e : Bool)
    (us : List (Bytes × Nat)) :
    ∀ m : Bytes, (∀ u ∈ us, u.2 % 8 = 0 ∧ u.2 ≤ 8 * u.1.length) →
    ∃ m', kUpdates P ⟨cabsd P r L m e, L⟩ us = some (List.replicate us.length 0, ⟨cabsd P r L m' e, L⟩) ∧
      Bits.ofBytes m' = Bits.ofBytes m ++ us.flatMap bitsOf := by
  induction us with
  | nil => intro m _; exact ⟨m, rfl, by simp⟩
  | cons u us ih =>
    intro m h
    obtain ⟨h8, hb⟩ := h u (by simp)
    obtain ⟨m', h5, h6⟩ := ih (m ++ u.1.take (u.2 / 8)) (fun u hu => h u (by simp [hu]))
    refine ⟨m', ?_, ?_⟩
    · simp [kUpdates, kmacUpdate, h8, cUpdate_aligned hP hr hrw L m e u.1 u.2 h8 hb, h5, List.replicate_succ]
    · have e8 : 8 * (u.2 / 8) = u.2 := by omega
      rw [h6, List.flatMap_cons, bitsOf, Bits.ofBytes_append, ← Bits.take_ofBytes, e8, List.append_assoc]

theorem kmacName_bits : bitsOf (kmacName, 32) = ascii [75, 77, 65, 67] := by decide
theorem tupleName_bits : bitsOf (tupleName, 72) = ascii [84, 117, 112, 108, 101, 72, 97, 115, 104] := by decide

/-- The state after `right_encode` has been absorbed. -/
theorem ready_rightEncode (hP : P.Valid) {r : Nat} (hr : 0 < r) (hrw : r ≤ P.width) (L : Nat)
    (hL : L < 2 ^ 64) (m : Bytes) (e : Bool) :
    ∃ i, cUpdate P (cabsd P r L m e) (rightEncode (BitVec.ofNat 64 L))
        ((rightEncode (BitVec.ofNat 64 L)).length * 8) = some (0, i) ∧
      Nonempty (Ready P r L e i (Bits.ofBytes m ++ right_encode L)) := by
  obtain ⟨i, h1, h2⟩ := cUpdate_ready hP hr hrw L m e (rightEncode (BitVec.ofNat 64 L))
    ((rightEncode (BitVec.ofNat 64 L)).length * 8) (by omega)
  refine ⟨i, h1, ?_⟩
  rw [List.take_of_length_le (by simp; omega), rightEncode_nat hL] at h2
  exact h2

section
variable (hP : P.Valid) (hw : P.width = 200) (f : Bits → Bits)
  (hf : ∀ s : Bytes, s.length = 200 → f (Bits.ofBytes s) = Bits.ofBytes (P.permute s))
  {sec : Nat} (hsec : sec = 128 ∨ sec = 256) (cust : Bytes) (cb : Nat)
  (hc : cb ≤ 8 * cust.length) (hc64 : cb + 7 < 2 ^ 64) (hclean : Bits.CleanAt cust cb)

include hP hw hsec hc hc64 hclean in
/-- cSHAKE initialised with a non-empty name: what has been absorbed. -/
theorem cInit_named (mem : CShakeInst) (L : Nat) (name : Bytes) (nb : Nat) (h0 : nb ≠ 0) (h8 : nb % 8 = 0)
    (hn : nb ≤ 8 * name.length) (h64 : nb < 2 ^ 64) :
    ∃ m, cInit P sec mem L name nb cust cb = some (0, cabsd P (rateBytes sec) L m false) ∧
      m.length % rateBytes sec = 0 ∧
      ∀ (f : Bits → Bits) (X : Bits) (d : Nat),
        Spec.sponge 1600 f (8 * rateBytes sec) (Bits.ofBytes m ++ X ++ sufBits false) d =
        Spec.cSHAKE f sec X d (bitsOf (name, nb)) (bitsOf (cust, cb)) := by
  have hi := cInit_eq hP hw hsec mem L name nb cust cb h8 hn hc hc64
  have hne : ¬ (nb = 0 ∧ cb = 0) := fun h => h0 h.1
  rw [if_neg hne] at hi
  refine ⟨_, hi, ?_, ?_⟩
  · exact padToRate_len _ _ (rateBytes_eq hsec).1
  · intro f X d
    have := cSHAKE_string f hsec name nb cust cb h8 hn h64 hc hc64 hclean X d
    rw [if_neg hne] at this
    simpa [hne] using this

include hP hw hsec hc hc64 hclean in
theorem kmacInit_eq (mem : KmacInst) (L : Nat) (key : Bytes) (kb : Nat)
    (hk : kb ≤ 8 * key.length) (hk64 : kb + 7 < 2 ^ 64) (hkclean : Bits.CleanAt key kb) :
    ∃ m, kmacInit P sec mem key kb L cust cb = some (0, ⟨cabsd P (rateBytes sec) L m false, L⟩) ∧
      ∀ (f : Bits → Bits) (X : Bits) (d : Nat),
        Spec.sponge 1600 f (8 * rateBytes sec) (Bits.ofBytes m ++ X ++ sufBits false) d =
        Spec.cSHAKE f sec (bytepad (encode_string (bitsOf (key, kb))) ((1600 - 2 * sec) / 8) ++ X) d
          (ascii [75, 77, 65, 67]) (bitsOf (cust, cb)) := by
  obtain ⟨hr, hr2, -, hr64⟩ := rateBytes_eq hsec
  have hrw : rateBytes sec ≤ P.width := by omega
  obtain ⟨m0, h1, h2, h3⟩ := cInit_named hP hw hsec cust cb hc hc64 hclean mem.csi L kmacName 32 (by decide)
    (by decide) (by decide) (by decide)
  -- the bytes absorbed after the cSHAKE prefix
  set buffer := leftEncode (BitVec.ofNat 64 (rateBytes sec)) ++ leftEncode (BitVec.ofNat 64 kb) with hbuf
  set A := buffer ++ key.take ((kb + 7) / 8) with hA
  have hAlen : A.length = buffer.length + (kb + 7) / 8 := by
    rw [hA, List.length_append, List.length_take]; omega
  have hpad : Bits.ofBytes (A ++ Bytes.zeros ((rateBytes sec - A.length % rateBytes sec) % rateBytes sec)) =
      bytepad (encode_string (bitsOf (key, kb))) (rateBytes sec) := by
    rw [← padToRate_eq _ _ hr]
    unfold bytepad
    congr 1
    rw [hA, ← padTo8_eq _ _ _ hk hkclean]
    congr 1
    have e2 : ((Bits.ofBytes key).take kb).length = kb := by simp; omega
    rw [hbuf, Bits.ofBytes_append, leftEncode_nat hr64, leftEncode_nat (show kb < 2 ^ 64 by omega)]
    simp only [encode_string, bitsOf, e2, List.append_assoc]
  refine ⟨m0 ++ (A ++ Bytes.zeros ((rateBytes sec - A.length % rateBytes sec) % rateBytes sec)), ?_, ?_⟩
  · have hseq : cUpdateSeq P (cabsd P (rateBytes sec) L m0 false)
        ([(buffer, buffer.length * 8), (key, bytesFor kb * 8)] ++
          kmacPad sec (buffer.length + bytesFor kb)) = some (0, cabsd P (rateBytes sec) L
        (m0 ++ (A ++ Bytes.zeros ((rateBytes sec - A.length % rateBytes sec) % rateBytes sec))) false) := by
      rw [bytesFor_eq hk64, ← hAlen]
      have hlt := Nat.mod_lt A.length hr
      have u1 := cUpdate_aligned hP hr hrw L m0 false buffer (buffer.length * 8) (by omega) (by omega)
      have u2 := fun m => cUpdate_aligned hP hr hrw L m false key ((kb + 7) / 8 * 8) (by omega) (by omega)
      simp only [List.cons_append, List.nil_append, cUpdateSeq, u1, u2, Option.bind_eq_bind,
        Option.bind_some, ne_eq, not_true_eq_false, if_false]
      rw [Nat.mul_div_cancel _ (by omega : 0 < 8), Nat.mul_div_cancel _ (by omega : 0 < 8), List.take_length]
      have hm : m0 ++ buffer ++ key.take ((kb + 7) / 8) = m0 ++ A := by rw [hA, List.append_assoc]
      rw [hm]
      unfold kmacPad
      simp only
      by_cases hz : A.length % rateBytes sec = 0
      · simp [hz, cUpdateSeq, Bytes.zeros]
      · simp only [ne_eq, hz, not_false_eq_true, if_true, cUpdateSeq]
        have u3 := cUpdate_aligned hP hr hrw L (m0 ++ A) false
          (Bytes.zeros (rateBytes sec - A.length % rateBytes sec))
          ((rateBytes sec - A.length % rateBytes sec) * 8) (by omega) (by simp; omega)
        rw [u3]
        simp only [Option.bind_eq_bind, Option.bind_some, not_true_eq_false, if_false]
        rw [Nat.mul_div_cancel _ (by omega : 0 < 8), List.take_of_length_le (by simp),
          Nat.mod_eq_of_lt (show rateBytes sec - A.length % rateBytes sec < rateBytes sec by omega),
          List.append_assoc]
    unfold kmacInit
    simp only [h1, Option.bind_eq_bind, Option.bind_some, ne_eq, not_true_eq_false, if_false]
    rw [← hbuf, hseq]
    rfl
  · intro f X d
    have := h3 f (bytepad (encode_string (bitsOf (key, kb))) (rateBytes sec) ++ X) d
    rw [kmacName_bits] at this
    rw [Bits.ofBytes_append, hpad, List.append_assoc (Bits.ofBytes m0), this]
    rfl

include hP hw hf hsec hc hc64 hclean

/-- **C14.** KMAC with a fixed output length: for every key, customisation string and partition of the
message into updates, all calls succeed and the output is SP 800-185 KMAC. -/
theorem C14_KMAC (mem : KmacInst) (key : Bytes) (kb : Nat)
    (hk : kb ≤ 8 * key.length) (hk64 : kb + 7 < 2 ^ 64) (hkclean : Bits.CleanAt key kb)
    (L : Nat) (hL : L ≠ 0) (hL64 : L + 7 < 2 ^ 64)
    (us : List (Bytes × Nat)) (hus : ∀ u ∈ us, u.2 % 8 = 0 ∧ u.2 ≤ 8 * u.1.length) :
    ∃ i0 i1 i2 out, kmacInit P sec mem key kb L cust cb = some (0, i0) ∧
      kUpdates P i0 us = some (List.replicate us.length 0, i1) ∧
      kmacFinal P i1 = some (0, i2, out) ∧
      Represents out (Spec.KMAC f sec (bitsOf (key, kb)) (us.flatMap bitsOf) L (bitsOf (cust, cb))) := by
  obtain ⟨hr, hr2, -, -⟩ := rateBytes_eq hsec
  have hrw : rateBytes sec ≤ P.width := by omega
  obtain ⟨m, h1, h2⟩ := kmacInit_eq hP hw hsec cust cb hc hc64 hclean mem L key kb hk hk64 hkclean
  obtain ⟨m1, h3, h4⟩ := kUpdates_eq hP hr hrw L false us m hus
  obtain ⟨i, h5, ⟨R⟩⟩ := ready_rightEncode hP hr hrw L (by omega) m1 false
  obtain ⟨i3, o, h6, -, h7⟩ := ready_fixed hP hw f hf hr (by omega) R hL hL64
  refine ⟨_, _, ⟨i3, L⟩, o, h1, h3, ?_, ?_⟩
  · simp [kmacFinal, h5, h6]
  · have := h2 f (us.flatMap bitsOf ++ right_encode L) L
    rw [h4, List.append_assoc (Bits.ofBytes _), this] at h7
    simpa [Spec.KMAC] using h7

/-- **C14.** KMACXOF: `outputBitLen = 0` and any sequence of squeezes. -/
theorem C14_KMACXOF (mem : KmacInst) (key : Bytes) (kb : Nat)
    (hk : kb ≤ 8 * key.length) (hk64 : kb + 7 < 2 ^ 64) (hkclean : Bits.CleanAt key kb)
    (us : List (Bytes × Nat)) (hus : ∀ u ∈ us, u.2 % 8 = 0 ∧ u.2 ≤ 8 * u.1.length)
    (ns : List Nat) (hns : ∀ n ∈ ns, n % 8 = 0 ∧ n + 7 < 2 ^ 64) (nl : Nat) (hnl : nl + 7 < 2 ^ 64) :
    ∃ i0 i1 i2 i3 i4 o1 o2, kmacInit P sec mem key kb 0 cust cb = some (0, i0) ∧
      kUpdates P i0 us = some (List.replicate us.length 0, i1) ∧
      kmacFinal P i1 = some (0, i2, []) ∧
      kSqueezes P i2 ns = some (List.replicate ns.length 0, i3, o1) ∧
      kmacSqueeze P i3 nl = some (0, i4, o2) ∧
      Represents (o1 ++ o2) (Spec.KMACXOF f sec (bitsOf (key, kb)) (us.flatMap bitsOf) (ns.sum + nl)
        (bitsOf (cust, cb))) := by
  obtain ⟨hr, hr2, -, -⟩ := rateBytes_eq hsec
  have hrw : rateBytes sec ≤ P.width := by omega
  obtain ⟨m, h1, h2⟩ := kmacInit_eq hP hw hsec cust cb hc hc64 hclean mem 0 key kb hk hk64 hkclean
  obtain ⟨m1, h3, h4⟩ := kUpdates_eq hP hr hrw 0 false us m hus
  obtain ⟨i, h5, ⟨R⟩⟩ := ready_rightEncode hP hr hrw 0 (by omega) m1 false
  obtain ⟨i3, i4, i5, o1, o2, h6, h7, h8, h9⟩ := ready_xof hP hw f hf hr (by omega) R ns hns nl hnl
  refine ⟨_, _, ⟨i3, 0⟩, ⟨i4, 0⟩, ⟨i5, 0⟩, o1, o2, h1, h3, ?_, kSqueezes_eq ns _ _ 0 _ _ h7, ?_, ?_⟩
  · simp [kmacFinal, h5, h6]
  · simp [kmacSqueeze, h8]
  · have := h2 f (us.flatMap bitsOf ++ right_encode 0) (ns.sum + nl)
    rw [h4, List.append_assoc (Bits.ofBytes _), this] at h9
    simpa [Spec.KMACXOF] using h9

/-- **C14.** The one-call function. -/
theorem C14_KMAC_one_call (stack : KmacInst) (key : Bytes) (kb : Nat)
    (hk : kb ≤ 8 * key.length) (hk64 : kb + 7 < 2 ^ 64) (hkclean : Bits.CleanAt key kb)
    (L : Nat) (hL : L ≠ 0) (hL64 : L + 7 < 2 ^ 64)
    (input : Bytes) (n : Nat) (h8 : n % 8 = 0) (hin : n ≤ 8 * input.length) :
    ∃ out, KMAC P sec stack key kb input n L cust cb = some (0, out) ∧
      Represents out (Spec.KMAC f sec (bitsOf (key, kb)) (bitsOf (input, n)) L (bitsOf (cust, cb))) := by
  obtain ⟨i0, i1, i2, out, h0, h1, h2, h3⟩ := C14_KMAC hP hw f hf hsec cust cb hc hc64 hclean stack key kb
    hk hk64 hkclean L hL hL64 [(input, n)] (by simpa using ⟨h8, hin⟩)
  refine ⟨out, ?_, by simpa using h3⟩
  simp only [kUpdates, Option.bind_eq_bind, Option.bind_eq_some_iff, Option.some.injEq,
    Prod.mk.injEq] at h1
  obtain ⟨⟨c, j⟩, h4, ⟨cs, j'⟩, ⟨rfl, rfl⟩, h5, rfl⟩ := h1
  simp only [List.length_singleton, List.replicate_one, List.cons.injEq, and_true] at h5
  subst h5
  simp [KMAC, hL, h0, h4, h2]

/-! ## C16: TupleHash -/

omit hw hf hc hc64 hclean hsec in
theorem tupleUpdate_eq {r : Nat} (hr : 0 < r) (hrw : r ≤ P.width) (L : Nat) (e : Bool)
    (us : List (Bytes × Nat)) :
    ∀ m : Bytes, (∀ u ∈ us, u.2 % 8 = 0 ∧ u.2 ≤ 8 * u.1.length ∧ u.2 < 2 ^ 64) →
    ∃ m', tupleUpdate P ⟨cabsd P r L m e, L⟩ us = some (0, ⟨cabsd P r L m' e, L⟩) ∧
      Bits.ofBytes m' = Bits.ofBytes m ++ (us.map bitsOf).flatMap encode_string := by
  induction us with
  | nil => intro m _; exact ⟨m, rfl, by simp⟩
  | cons u us ih =>
    intro m h
    obtain ⟨h8, hb, h64⟩ := h u (by simp)
    have u1 := cUpdate_aligned hP hr hrw L m e (leftEncode (BitVec.ofNat 64 u.2))
      ((leftEncode (BitVec.ofNat 64 u.2)).length * 8) (by omega) (by omega)
    rw [Nat.mul_div_cancel _ (by omega : 0 < 8), List.take_length] at u1
    obtain ⟨m', h5, h6⟩ := ih (m ++ leftEncode (BitVec.ofNat 64 u.2) ++ u.1.take (u.2 / 8))
      (fun u hu => h u (by simp [hu]))
    refine ⟨m', ?_, ?_⟩
    · simp only [tupleUpdate, h8, ne_eq, not_true_eq_false, if_false, u1, Option.bind_eq_bind, Option.bind_some,
        cUpdate_aligned hP hr hrw L _ e u.1 u.2 h8 hb, h5]
    · have e8 : 8 * (u.2 / 8) = u.2 := by omega
      have el : (bitsOf u).length = u.2 := by simp [bitsOf]; omega
      rw [h6, List.map_cons, List.flatMap_cons, Bits.ofBytes_append, Bits.ofBytes_append,
        leftEncode_nat h64, ← Bits.take_ofBytes, e8]
      simp only [encode_string, el, List.append_assoc]
      rfl

/-- Successive `TupleHash_Update` calls, each with an array of elements. -/
def tUpdates (P : SnP) (i : KmacInst) : List (List (Bytes × Nat)) → Option (List Nat × KmacInst)
  | [] => some ([], i)
  | u :: us => do
    let (c, i) ← tupleUpdate P i u
    let (cs, i) ← tUpdates P i us
    some (c :: cs, i)

omit hw hf hc hc64 hclean hsec in
theorem tUpdates_eq {r : Nat} (hr : 0 < r) (hrw : r ≤ P.width) (L : Nat) (e : Bool)
    (uss : List (List (Bytes × Nat))) :
    ∀ m : Bytes, (∀ us ∈ uss, ∀ u ∈ us, u.2 % 8 = 0 ∧ u.2 ≤ 8 * u.1.length ∧ u.2 < 2 ^ 64) →
    ∃ m', tUpdates P ⟨cabsd P r L m e, L⟩ uss =
        some (List.replicate uss.length 0, ⟨cabsd P r L m' e, L⟩) ∧
      Bits.ofBytes m' = Bits.ofBytes m ++ (uss.flatten.map bitsOf).flatMap encode_string := by
  induction uss with
  | nil => intro m _; exact ⟨m, rfl, by simp⟩
  | cons us uss ih =>
    intro m h
    obtain ⟨m1, h1, h2⟩ := tupleUpdate_eq hP hr hrw L e us m (h us (by simp))
    obtain ⟨m2, h3, h4⟩ := ih m1 (fun us hu => h us (by simp [hu]))
    refine ⟨m2, by simp [tUpdates, h1, h3, List.replicate_succ], ?_⟩
    rw [h4, h2]; simp

/-- **C16.** TupleHash with a fixed output length, for every tuple of byte strings in any grouping into
Update calls. -/
theorem C16_TupleHash (mem : KmacInst) (L : Nat) (hL : L ≠ 0) (hL64 : L + 7 < 2 ^ 64)
    (uss : List (List (Bytes × Nat)))
    (hus : ∀ us ∈ uss, ∀ u ∈ us, u.2 % 8 = 0 ∧ u.2 ≤ 8 * u.1.length ∧ u.2 < 2 ^ 64) :
    ∃ i0 i1 i2 out, tupleInit P sec mem L cust cb = some (0, i0) ∧
      tUpdates P i0 uss = some (List.replicate uss.length 0, i1) ∧
      kmacFinal P i1 = some (0, i2, out) ∧
      Represents out (Spec.TupleHash f sec (uss.flatten.map bitsOf) L (bitsOf (cust, cb))) := by
  obtain ⟨hr, hr2, -, -⟩ := rateBytes_eq hsec
  have hrw : rateBytes sec ≤ P.width := by omega
  obtain ⟨m0, h1, -, h2⟩ := cInit_named hP hw hsec cust cb hc hc64 hclean mem.csi L tupleName 72 (by decide)
    (by decide) (by decide) (by decide)
  obtain ⟨m1, h3, h4⟩ := tUpdates_eq hP hr hrw L false uss m0 hus
  obtain ⟨i, h5, ⟨R⟩⟩ := ready_rightEncode hP hr hrw L (by omega) m1 false
  obtain ⟨i3, o, h6, -, h7⟩ := ready_fixed hP hw f hf hr (by omega) R hL hL64
  refine ⟨⟨_, L⟩, _, ⟨i3, L⟩, o, ?_, h3, ?_, ?_⟩
  · simp [tupleInit, h1]
  · simp [kmacFinal, h5, h6]
  · have := h2 f ((uss.flatten.map bitsOf).flatMap encode_string ++ right_encode L) L
    rw [h4, List.append_assoc (Bits.ofBytes _), this, tupleName_bits] at h7
    exact h7

/-- **C16.** TupleHashXOF. -/
theorem C16_TupleHashXOF (mem : KmacInst) (uss : List (List (Bytes × Nat)))
    (hus : ∀ us ∈ uss, ∀ u ∈ us, u.2 % 8 = 0 ∧ u.2 ≤ 8 * u.1.length ∧ u.2 < 2 ^ 64)
    (ns : List Nat) (hns : ∀ n ∈ ns, n % 8 = 0 ∧ n + 7 < 2 ^ 64) (nl : Nat) (hnl : nl + 7 < 2 ^ 64) :
    ∃ i0 i1 i2 i3 i4 o1 o2, tupleInit P sec mem 0 cust cb = some (0, i0) ∧
      tUpdates P i0 uss = some (List.replicate uss.length 0, i1) ∧
      kmacFinal P i1 = some (0, i2, []) ∧
      kSqueezes P i2 ns = some (List.replicate ns.length 0, i3, o1) ∧
      kmacSqueeze P i3 nl = some (0, i4, o2) ∧
      Represents (o1 ++ o2) (Spec.TupleHashXOF f sec (uss.flatten.map bitsOf) (ns.sum + nl)
        (bitsOf (cust, cb))) := by
  obtain ⟨hr, hr2, -, -⟩ := rateBytes_eq hsec
  have hrw : rateBytes sec ≤ P.width := by omega
  obtain ⟨m0, h1, -, h2⟩ := cInit_named hP hw hsec cust cb hc hc64 hclean mem.csi 0 tupleName 72 (by decide)
    (by decide) (by decide) (by decide)
  obtain ⟨m1, h3, h4⟩ := tUpdates_eq hP hr hrw 0 false uss m0 hus
  obtain ⟨i, h5, ⟨R⟩⟩ := ready_rightEncode hP hr hrw 0 (by omega) m1 false
  obtain ⟨i3, i4, i5, o1, o2, h6, h7, h8, h9⟩ := ready_xof hP hw f hf hr (by omega) R ns hns nl hnl
  refine ⟨⟨_, 0⟩, _, ⟨i3, 0⟩, ⟨i4, 0⟩, ⟨i5, 0⟩, o1, o2, ?_, h3, ?_, kSqueezes_eq ns _ _ 0 _ _ h7, ?_, ?_⟩
  · simp [tupleInit, h1]
  · simp [kmacFinal, h5, h6]
  · simp [kmacSqueeze, h8]
  · have := h2 f ((uss.flatten.map bitsOf).flatMap encode_string ++ right_encode 0) (ns.sum + nl)
    rw [h4, List.append_assoc (Bits.ofBytes _), this, tupleName_bits] at h9
    exact h9

/-- **C16.** The one-call function. -/
theorem C16_TupleHash_one_call (stack : KmacInst) (L : Nat) (hL : L ≠ 0) (hL64 : L + 7 < 2 ^ 64)
    (us : List (Bytes × Nat))
    (hus : ∀ u ∈ us, u.2 % 8 = 0 ∧ u.2 ≤ 8 * u.1.length ∧ u.2 < 2 ^ 64) :
    ∃ out, TupleHash P sec stack us L cust cb = some (0, out) ∧
      Represents out (Spec.TupleHash f sec (us.map bitsOf) L (bitsOf (cust, cb))) := by
  obtain ⟨i0, i1, i2, out, h0, h1, h2, h3⟩ := C16_TupleHash hP hw f hf hsec cust cb hc hc64 hclean stack
    L hL hL64 [us] (by simpa using hus)
  refine ⟨out, ?_, by simpa using h3⟩
  simp only [tUpdates, Option.bind_eq_bind, Option.bind_eq_some_iff, Option.some.injEq,
    Prod.mk.injEq] at h1
  obtain ⟨⟨c, j⟩, h4, ⟨cs, j'⟩, ⟨rfl, rfl⟩, h5, rfl⟩ := h1
  simp only [List.length_singleton, List.replicate_one, List.cons.injEq, and_true] at h5
  subst h5
  simp [TupleHash, hL, h0, h4, h2]

end

/-! ### The encoding of tuples is injective -/

theorem left_encode_prefix {x y : Nat} (hx : x < 2 ^ 64) (hy : y < 2 ^ 64) {a b : Bits}
    (h : left_encode x ++ a = left_encode y ++ b) : x = y ∧ a = b := by
  have h8 : enc8 (base256 x).length = enc8 (base256 y).length := by
    have := congrArg (List.take 8) h
    simpa [left_encode, List.append_assoc, List.take_append_of_le_length, length_enc8,
      List.take_of_length_le] using this
  have hlen : (base256 x).length = (base256 y).length := by
    rw [← ofByte_ofNat_enc8, ← ofByte_ofNat_enc8] at h8
    have := congrArg BitVec.toNat (Bits.ofByte_injective h8)
    simp only [BitVec.toNat_ofNat] at this
    have h1 := (base256_length_le_iff x 8 (by omega)).2 (by omega)
    have h2 := (base256_length_le_iff y 8 (by omega)).2 (by omega)
    omega
  obtain ⟨h1, h2⟩ := List.append_inj h (by rw [length_left_encode, length_left_encode, hlen])
  refine ⟨?_, h2⟩
  rw [← leftEncode_nat hx, ← leftEncode_nat hy] at h1
  have := (leftEncode_prefix (v := BitVec.ofNat 64 x) (w := BitVec.ofNat 64 y) (a := []) (b := [])
    (by rw [Bits.ofBytes_injective h1])).1
  have := congrArg BitVec.toNat this
  rwa [BitVec.toNat_ofNat, BitVec.toNat_ofNat, Nat.mod_eq_of_lt hx, Nat.mod_eq_of_lt hy] at this

theorem right_encode_suffix {x y : Nat} (hx : x < 2 ^ 64) (hy : y < 2 ^ 64) {a b : Bits}
    (h : a ++ right_encode x = b ++ right_encode y) : x = y ∧ a = b := by
  unfold right_encode at h
  rw [← List.append_assoc, ← List.append_assoc] at h
  obtain ⟨h0, h8⟩ := List.append_inj' h (by rw [length_enc8, length_enc8])
  have hlen : (base256 x).length = (base256 y).length := by
    rw [← ofByte_ofNat_enc8, ← ofByte_ofNat_enc8] at h8
    have := congrArg BitVec.toNat (Bits.ofByte_injective h8)
    simp only [BitVec.toNat_ofNat] at this
    have h1 := (base256_length_le_iff x 8 (by omega)).2 (by omega)
    have h2 := (base256_length_le_iff y 8 (by omega)).2 (by omega)
    omega
  obtain ⟨h1, h2⟩ := List.append_inj' h0 (by
    rw [Sponge.flatMap_length_ge _ _ 8 (fun _ _ => length_enc8 _),
      Sponge.flatMap_length_ge _ _ 8 (fun _ _ => length_enc8 _), hlen])
  refine ⟨?_, h1⟩
  exact (left_encode_prefix hx hy (a := []) (b := []) (by simp [left_encode, hlen, h2])).1

theorem encode_tuple_inj (X Y : List Bits) (hX : ∀ x ∈ X, x.length < 2 ^ 64)
    (hY : ∀ x ∈ Y, x.length < 2 ^ 64) (h : X.flatMap encode_string = Y.flatMap encode_string) : X = Y := by
  have hne : ∀ x : Bits, ∀ t : Bits, encode_string x ++ t ≠ [] := by
    intro x t h
    have := congrArg List.length h
    simp [encode_string, length_left_encode] at this
  induction X generalizing Y with
  | nil =>
    cases Y with
    | nil => rfl
    | cons y Y => exact absurd h.symm (hne _ _)
  | cons x X ih =>
    cases Y with
    | nil => exact absurd h (hne _ _)
    | cons y Y =>
      rw [List.flatMap_cons, List.flatMap_cons] at h
      simp only [encode_string, List.append_assoc] at h
      obtain ⟨h1, h2⟩ := left_encode_prefix (hX x (by simp)) (hY y (by simp)) h
      obtain ⟨h3, h4⟩ := List.append_inj h2 h1
      rw [h3, ih Y (fun x hx => hX x (by simp [hx])) (fun y hy => hY y (by simp [hy])) h4]

/-- **C16.** The string hashed by TupleHash determines the tuple and the output length: different tuples
of bit strings (of lengths that fit `BitLength`) are never hashed as the same string. -/
theorem C16_tuple_injective (X Y : List Bits) (L M : Nat) (hX : ∀ x ∈ X, x.length < 2 ^ 64)
    (hY : ∀ x ∈ Y, x.length < 2 ^ 64) (hL : L < 2 ^ 64) (hM : M < 2 ^ 64)
    (h : X.flatMap encode_string ++ right_encode L = Y.flatMap encode_string ++ right_encode M) :
    X = Y ∧ L = M := by
  obtain ⟨h1, h2⟩ := right_encode_suffix hL hM h
  exact ⟨encode_tuple_inj X Y hX hY h2, h1⟩

-- ("ab", "c") and ("a", "bc") are encoded differently
example : [[true, false], [true]].flatMap encode_string ≠ [[true], [false, true]].flatMap encode_string := by
  intro h
  exact absurd (encode_tuple_inj _ _ (by simp) (by simp) h) (by decide)

-- hypotheses met: 21-bit key, no customisation, three updates one of which is empty
example (mem : KmacInst) : ∃ f : Bits → Bits, ∃ i0 i1 i2 out,
    kmacInit toy1600 256 mem [1, 2, 0x1F] 21 256 [] 0 = some (0, i0) ∧
    kUpdates toy1600 i0 [([1, 2, 3], 24), ([], 0), ([4, 5], 16)] = some ([0, 0, 0], i1) ∧
    kmacFinal toy1600 i1 = some (0, i2, out) ∧
    Represents out (Spec.KMAC f 256 (bitsOf ([1, 2, 0x1F], 21))
      ([([1, 2, 3], 24), ([], 0), ([4, 5], 16)].flatMap bitsOf) 256 (bitsOf ([], 0))) := by
  obtain ⟨f, hf⟩ := exists_bitLevel toy1600
  refine ⟨f, ?_⟩
  have := C14_KMAC toy1600_valid rfl f hf (Or.inr rfl) [] 0 (by decide) (by decide)
    (Bits.cleanAt_of_aligned _ _ rfl) mem [1, 2, 0x1F] 21 (by decide) (by decide)
    (by unfold Bits.CleanAt; decide) 256 (by decide) (by decide)
    [([1, 2, 3], 24), ([], 0), ([4, 5], 16)] (by simp)
  simpa using this

-- hypotheses met: a tuple of three strings, one empty, in two Update calls
example (mem : KmacInst) : ∃ f : Bits → Bits, ∃ i0 i1 i2 out,
    tupleInit toy1600 128 mem 64 [0x7A] 8 = some (0, i0) ∧
    tUpdates toy1600 i0 [[([1, 2, 3], 24), ([], 0)], [([4, 5], 16)]] = some ([0, 0], i1) ∧
    kmacFinal toy1600 i1 = some (0, i2, out) ∧
    Represents out (Spec.TupleHash f 128 [bitsOf ([1, 2, 3], 24), [], bitsOf ([4, 5], 16)] 64
      (bitsOf ([0x7A], 8))) := by
  obtain ⟨f, hf⟩ := exists_bitLevel toy1600
  refine ⟨f, ?_⟩
  have := C16_TupleHash toy1600_valid rfl f hf (Or.inl rfl) [0x7A] 8 (by decide) (by decide)
    (Bits.cleanAt_of_aligned _ _ rfl) mem 64 (by decide) (by decide)
    [[([1, 2, 3], 24), ([], 0)], [([4, 5], 16)]]
    (by intro us hus u hu; fin_cases hus <;> fin_cases hu <;> decide)
  simpa [bitsOf] using this

/-! ### Unused bits of the last byte

`CleanAt` cannot be dropped for the customisation string and the key: the whole last byte is absorbed. -/

/-- Two calls that denote the same 4-bit customisation string absorb different bytes, so `CleanAt` is
needed in C13, C14 and C16 (finding F4). -/
theorem C13_stray_custom_bits :
    bitsOf ([0x05], 4) = bitsOf ([0xF5], 4) ∧
    cPrefix 168 [] 0 [0x05] 4 ≠ cPrefix 168 [] 0 [0xF5] 4 := by
  refine ⟨by decide, ?_⟩
  intro h
  have := congrArg (fun l => l[6]?) h
  revert this
  decide

/-! ## C17: call order -/

/-- Calls on an initialised cSHAKE instance. -/
inductive CCall
  | update (input : Bytes) (inputBitLen : Nat)
  | final
  | squeeze (outputBitLen : Nat)

/-- The caller's obligations: the buffer holds the announced bits, lengths fit in memory. -/
def CCall.ok : CCall → Prop
  | .update input n => n ≤ 8 * input.length
  | .final => True
  | .squeeze n => n + 7 < 2 ^ 64

/-- What a user may rely on: the states of a cSHAKE computation. -/
inductive Stage
  /-- accepting input -/
  | absorbing
  /-- a partial byte has been given: only `Final` is possible -/
  | lastBits
  /-- extendable output: squeezing -/
  | squeezing
  /-- nothing more can be done -/
  | done
deriving DecidableEq

/-- The documented call discipline (SP800-185.h:45-135) for output length `L` (0 = extendable): return code
and next stage. -/
def discipline (L : Nat) : Stage → CCall → Nat × Stage
  | .absorbing, .update _ n => (0, if n % 8 = 0 then .absorbing else .lastBits)
  | .absorbing, .final => (0, if L = 0 then .squeezing else .done)
  | .lastBits, .final => (0, if L = 0 then .squeezing else .done)
  | .squeezing, .squeeze n => (0, if n % 8 = 0 then .squeezing else .done)
  | s, _ => (1, s)

/-- Execute a call on the model. -/
def CCall.run (P : SnP) (i : CShakeInst) : CCall → Option (Nat × CShakeInst)
  | .update input n => cUpdate P i input n
  | .final => (cFinal P i).map fun x => (x.1, x.2.1)
  | .squeeze n => (cSqueeze P i n).map fun x => (x.1, x.2.1)

/-- Execute a history of calls, recording return codes and instances. -/
def runCalls (P : SnP) (i : CShakeInst) : List CCall → Option (List (Nat × CShakeInst))
  | [] => some []
  | c :: cs => do
    let x ← c.run P i
    let xs ← runCalls P x.2 cs
    some (x :: xs)

/-- The return codes prescribed by the discipline. -/
def codes (L : Nat) : Stage → List CCall → List Nat
  | _, [] => []
  | s, c :: cs => (discipline L s c).1 :: codes L (discipline L s c).2 cs

/-- Every call that returned 1 left the instance as it was. -/
def ErrorsFrame : CShakeInst → List (Nat × CShakeInst) → Prop
  | _, [] => True
  | i, x :: xs => (x.1 = 1 → x.2 = i) ∧ ErrorsFrame x.2 xs

/-- The instances belonging to a stage. -/
inductive InStage (P : SnP) (r L : Nat) (e : Bool) : Stage → CShakeInst → Prop
  | absorbing (m) : InStage P r L e .absorbing (cabsd P r L m e)
  | lastBits (i msg) (R : Ready P r L e i msg) (h : i.lastByteBitLen ≠ 0) : InStage P r L e .lastBits i
  | squeezing (i m d k) : InStage P r L e .squeezing (csqd P r m d k i)
  | done (i) (h : i.phase = .final) : InStage P r L e .done i

theorem cUpdate_lastBits (hP : P.Valid) {r : Nat} (hr : 0 < r) (hrw : r ≤ P.width) (L : Nat) (m : Bytes)
    (e : Bool) (data : Bytes) (n : Nat) (h8 : n % 8 ≠ 0) (i : CShakeInst) (c : Nat)
    (h : cUpdate P (cabsd P r L m e) data n = some (c, i)) : i.lastByteBitLen ≠ 0 := by
  simp only [cUpdate, cabsd, ne_eq, not_true_eq_false, if_false, h8, not_false_eq_true, if_true,
    Option.bind_eq_bind, Option.bind_eq_some_iff, Sponge.absorb_absd hP hr hrw, Option.some.injEq,
    Prod.mk.injEq] at h
  obtain ⟨_, _, _, _, _, _, _, rfl⟩ := h
  exact h8

theorem ready_final (hP : P.Valid) {r : Nat} (hr : 0 < r) (hrw : r ≤ P.width) {L : Nat}
    (hL64 : L + 7 < 2 ^ 64) {e : Bool} {i : CShakeInst} {msg : Bits} (R : Ready P r L e i msg) :
    ∃ i' o, cFinal P i = some (0, i', o) ∧
      InStage P r L e (if L = 0 then .squeezing else .done) i' := by
  by_cases hL : L = 0
  · refine ⟨csqd P r R.m R.d 0 i, [], ?_, ?_⟩
    · rw [R.fin]; simp [cSwitch, R.len, csqd, hL]
    · simp only [hL, if_true]; exact .squeezing _ _ _ _
  · obtain ⟨j, o, h1, -, -, h3⟩ := cSqueeze_any hP hr hrw R.m R.d 0 i L hL64
    refine ⟨{ j with phase := .final }, o, ?_, ?_⟩
    · rw [R.fin]
      unfold cSwitch
      have h1' : cSqueeze P { i with sponge := Sponge.sqd P r R.m R.d 0, phase := .squeezing } L =
        some (0, j, o) := h1
      rw [R.len] at h1'
      simp [R.len, hL, h1']
    · simp only [hL, if_false]; exact .done _ rfl

theorem discipline_step (hP : P.Valid) {r : Nat} (hr : 0 < r) (hrw : r ≤ P.width) {L : Nat}
    (hL64 : L + 7 < 2 ^ 64) {e : Bool} {s : Stage} {i : CShakeInst} (hi : InStage P r L e s i)
    (c : CCall) (hc : c.ok) :
    ∃ i', c.run P i = some ((discipline L s c).1, i') ∧ InStage P r L e (discipline L s c).2 i' ∧
      ((discipline L s c).1 = 1 → i' = i) := by
  cases hi with
  | absorbing m =>
    cases c with
    | update input n =>
      obtain ⟨i', h1, ⟨R⟩⟩ := cUpdate_ready hP hr hrw L m e input n hc
      refine ⟨i', h1, ?_, by simp [discipline]⟩
      simp only [discipline]
      by_cases h8 : n % 8 = 0
      · rw [cUpdate_aligned hP hr hrw L m e input n h8 hc] at h1
        cases h1
        simp only [h8, if_true]; exact .absorbing _
      · simp only [h8, if_false]
        exact .lastBits _ _ R (cUpdate_lastBits hP hr hrw L m e input n h8 i' 0 h1)
    | final =>
      obtain ⟨i', h1, ⟨R⟩⟩ := cUpdate_ready hP hr hrw L m e [] 0 (by simp)
      rw [cUpdate_aligned hP hr hrw L m e [] 0 rfl (by simp)] at h1
      simp only [List.take_nil, List.append_nil, Option.some.injEq, Prod.mk.injEq, true_and] at h1
      subst h1
      obtain ⟨i', o, h2, h3⟩ := ready_final hP hr hrw hL64 R
      exact ⟨i', by simp [CCall.run, h2, discipline], h3, by simp [discipline]⟩
    | squeeze n =>
      exact ⟨_, by simp [CCall.run, cSqueeze, cabsd, discipline], .absorbing m, fun _ => rfl⟩
  | lastBits i msg R h =>
    cases c with
    | update input n =>
      exact ⟨i, by simp [CCall.run, cUpdate, R.phase, h, discipline], .lastBits _ _ R h, fun _ => rfl⟩
    | final =>
      obtain ⟨i', o, h2, h3⟩ := ready_final hP hr hrw hL64 R
      exact ⟨i', by simp [CCall.run, h2, discipline], h3, by simp [discipline]⟩
    | squeeze n =>
      exact ⟨i, by simp [CCall.run, cSqueeze, R.phase, discipline], .lastBits _ _ R h, fun _ => rfl⟩
  | squeezing i m d k =>
    cases c with
    | update input n =>
      exact ⟨_, by simp [CCall.run, cUpdate, csqd, discipline], .squeezing i m d k, fun _ => rfl⟩
    | final =>
      exact ⟨_, by simp [CCall.run, cFinal, csqd, discipline], .squeezing i m d k, fun _ => rfl⟩
    | squeeze n =>
      obtain ⟨j, o, h1, h2, h3, -⟩ := cSqueeze_any hP hr hrw m d k i n hc
      refine ⟨j, by simp [CCall.run, h1, discipline], ?_, by simp [discipline]⟩
      simp only [discipline]
      by_cases h8 : n % 8 = 0
      · rw [h2 h8]; simp only [h8, if_true]; exact .squeezing _ _ _ _
      · simp only [h8, if_false]; exact .done _ (h3 h8)
  | done i h =>
    cases c with
    | update input n => exact ⟨i, by simp [CCall.run, cUpdate, h, discipline], .done _ h, fun _ => rfl⟩
    | final => exact ⟨i, by simp [CCall.run, cFinal, h, discipline], .done _ h, fun _ => rfl⟩
    | squeeze n => exact ⟨i, by simp [CCall.run, cSqueeze, h, discipline], .done _ h, fun _ => rfl⟩

theorem runCalls_eq (hP : P.Valid) {r : Nat} (hr : 0 < r) (hrw : r ≤ P.width) {L : Nat}
    (hL64 : L + 7 < 2 ^ 64) {e : Bool} (cs : List CCall) :
    ∀ {s : Stage} {i : CShakeInst}, InStage P r L e s i → (∀ c ∈ cs, c.ok) →
    ∃ xs, runCalls P i cs = some xs ∧ xs.map Prod.fst = codes L s cs ∧ ErrorsFrame i xs := by
  induction cs with
  | nil => intro s i _ _; exact ⟨[], rfl, rfl, trivial⟩
  | cons c cs ih =>
    intro s i hi hok
    obtain ⟨i', h1, h2, h3⟩ := discipline_step hP hr hrw hL64 hi c (hok c (by simp))
    obtain ⟨xs, h4, h5, h6⟩ := ih h2 (fun c hc => hok c (by simp [hc]))
    refine ⟨((discipline L s c).1, i') :: xs, by simp [runCalls, h1, h4], by simp [codes, h5], ?_⟩
    exact ⟨h3, h6⟩

/-- **C17 (cSHAKE).** After a successful initialisation, for every history of calls: no call is undefined
behaviour, the return codes are exactly those of the call discipline (0 for the calls it allows, 1 for an
update after a partial byte or after `Final`, a second `Final`, a squeeze before `Final`, after a fixed-length
`Final` or after a partial-byte squeeze), and a call that returns 1 leaves the instance unchanged. -/
theorem C17_cSHAKE_discipline (hP : P.Valid) (hw : P.width = 200) {sec : Nat}
    (hsec : sec = 128 ∨ sec = 256) (mem i0 : CShakeInst) (L : Nat) (hL64 : L + 7 < 2 ^ 64)
    (name : Bytes) (nb : Nat) (cust : Bytes) (cb : Nat) (hn : nb ≤ 8 * name.length)
    (hc : cb ≤ 8 * cust.length) (hc64 : cb + 7 < 2 ^ 64)
    (h0 : cInit P sec mem L name nb cust cb = some (0, i0)) (cs : List CCall) (hcs : ∀ c ∈ cs, c.ok) :
    ∃ xs, runCalls P i0 cs = some xs ∧ xs.map Prod.fst = codes L .absorbing cs ∧ ErrorsFrame i0 xs := by
  obtain ⟨hr, hr2, -, -⟩ := rateBytes_eq hsec
  have hnb : nb % 8 = 0 := by
    by_contra h
    simp [cInit, h] at h0
  rw [cInit_eq hP hw hsec mem L name nb cust cb hnb hn hc hc64] at h0
  simp only [Option.some.injEq, Prod.mk.injEq, true_and] at h0
  subst h0
  split
  · exact runCalls_eq hP hr (by omega) hL64 cs (.absorbing _) hcs
  · exact runCalls_eq hP hr (by omega) hL64 cs (.absorbing _) hcs

/-- **C17.** `cSHAKE_Initialize` succeeds exactly when the function name is a whole number of bytes, and
otherwise changes nothing. -/
theorem C17_init (hP : P.Valid) (hw : P.width = 200) {sec : Nat}
    (hsec : sec = 128 ∨ sec = 256) (mem : CShakeInst) (L : Nat)
    (name : Bytes) (nb : Nat) (cust : Bytes) (cb : Nat) (hn : nb ≤ 8 * name.length)
    (hc : cb ≤ 8 * cust.length) (hc64 : cb + 7 < 2 ^ 64) :
    ∃ c i, cInit P sec mem L name nb cust cb = some (c, i) ∧ (c = 0 ↔ nb % 8 = 0) ∧
      (nb % 8 ≠ 0 → c = 1 ∧ i = mem) := by
  by_cases hnb : nb % 8 = 0
  · exact ⟨0, _, cInit_eq hP hw hsec mem L name nb cust cb hnb hn hc hc64, by simp [hnb], by simp [hnb]⟩
  · exact ⟨1, mem, by simp [cInit, hnb], by simp [hnb], by simp⟩

-- a history that exercises every kind of error
example : codes 16 .absorbing [.squeeze 8, .update [0xFF] 5, .update [] 0, .final, .final, .update [] 0,
    .squeeze 8] = [1, 0, 1, 0, 1, 1, 1] := by decide
example : codes 0 .absorbing [.update [0xFF] 8, .final, .squeeze 8, .squeeze 3, .squeeze 8] =
    [0, 0, 0, 0, 1] := by decide

/-- Calls on KMAC (and `final`/`squeeze` on TupleHash) instances. -/
def CCall.runK (P : SnP) (i : KmacInst) : CCall → Option (Nat × KmacInst)
  | .update input n => kmacUpdate P i input n
  | .final => (kmacFinal P i).map fun x => (x.1, x.2.1)
  | .squeeze n => (kmacSqueeze P i n).map fun x => (x.1, x.2.1)

/-- The documented discipline of KMAC: as cSHAKE, but an update that is not byte aligned is refused. -/
def disciplineK (L : Nat) : Stage → CCall → Nat × Stage
  | .absorbing, .update _ n => if n % 8 = 0 then (0, .absorbing) else (1, .absorbing)
  | .absorbing, .final => (0, if L = 0 then .squeezing else .done)
  | .squeezing, .squeeze n => (0, if n % 8 = 0 then .squeezing else .done)
  | s, _ => (1, s)

def runCallsK (P : SnP) (i : KmacInst) : List CCall → Option (List (Nat × KmacInst))
  | [] => some []
  | c :: cs => do
    let x ← c.runK P i
    let xs ← runCallsK P x.2 cs
    some (x :: xs)

def codesK (L : Nat) : Stage → List CCall → List Nat
  | _, [] => []
  | s, c :: cs => (disciplineK L s c).1 :: codesK L (disciplineK L s c).2 cs

def ErrorsFrameK : KmacInst → List (Nat × KmacInst) → Prop
  | _, [] => True
  | i, x :: xs => (x.1 = 1 → x.2 = i) ∧ ErrorsFrameK x.2 xs

theorem disciplineK_step (hP : P.Valid) {r : Nat} (hr : 0 < r) (hrw : r ≤ P.width) {L : Nat}
    (hL64 : L + 7 < 2 ^ 64) {e : Bool} {s : Stage} (hs : s ≠ .lastBits) {i : CShakeInst}
    (hi : InStage P r L e s i) (c : CCall) (hc : c.ok) :
    ∃ i', c.runK P ⟨i, L⟩ = some ((disciplineK L s c).1, ⟨i', L⟩) ∧
      InStage P r L e (disciplineK L s c).2 i' ∧ (disciplineK L s c).2 ≠ .lastBits ∧
      ((disciplineK L s c).1 = 1 → i' = i) := by
  cases hi with
  | absorbing m =>
    cases c with
    | update input n =>
      by_cases h8 : n % 8 = 0
      · refine ⟨_, by simp [CCall.runK, kmacUpdate, h8, cUpdate_aligned hP hr hrw L m e input n h8 hc,
          disciplineK]; rfl, ?_, ?_, ?_⟩ <;> simp [disciplineK, h8]
        exact .absorbing _
      · refine ⟨_, by simp [CCall.runK, kmacUpdate, h8, disciplineK]; rfl, ?_, ?_, ?_⟩ <;>
          simp [disciplineK, h8]
        exact .absorbing _
    | final =>
      obtain ⟨i, h1, ⟨R⟩⟩ := ready_rightEncode hP hr hrw L (by omega) m e
      obtain ⟨i', o, h2, h3⟩ := ready_final hP hr hrw hL64 R
      refine ⟨i', by simp [CCall.runK, kmacFinal, h1, h2, disciplineK], h3, ?_, by simp [disciplineK]⟩
      simp only [disciplineK]; split <;> decide
    | squeeze n =>
      exact ⟨_, by simp [CCall.runK, kmacSqueeze, cSqueeze, cabsd, disciplineK], .absorbing m,
        by simp [disciplineK], fun _ => rfl⟩
  | lastBits i msg R h => exact absurd rfl hs
  | squeezing i m d k =>
    cases c with
    | update input n =>
      refine ⟨_, ?_, .squeezing i m d k, by simp [disciplineK], fun _ => rfl⟩
      by_cases h8 : n % 8 = 0 <;> simp [CCall.runK, kmacUpdate, cUpdate, csqd, disciplineK, h8]
    | final =>
      exact ⟨_, by simp [CCall.runK, kmacFinal, cUpdate, csqd, disciplineK], .squeezing i m d k,
        by simp [disciplineK], fun _ => rfl⟩
    | squeeze n =>
      obtain ⟨j, o, h1, h2, h3, -⟩ := cSqueeze_any hP hr hrw m d k i n hc
      refine ⟨j, by simp [CCall.runK, kmacSqueeze, h1, disciplineK], ?_, ?_, by simp [disciplineK]⟩
      · simp only [disciplineK]
        by_cases h8 : n % 8 = 0
        · rw [h2 h8]; simp only [h8, if_true]; exact .squeezing _ _ _ _
        · simp only [h8, if_false]; exact .done _ (h3 h8)
      · simp only [disciplineK]; split <;> decide
  | done i h =>
    cases c with
    | update input n =>
      refine ⟨i, ?_, .done _ h, by simp [disciplineK], fun _ => rfl⟩
      by_cases h8 : n % 8 = 0 <;> simp [CCall.runK, kmacUpdate, cUpdate, h, disciplineK, h8]
    | final =>
      exact ⟨i, by simp [CCall.runK, kmacFinal, cUpdate, h, disciplineK], .done _ h, by simp [disciplineK],
        fun _ => rfl⟩
    | squeeze n =>
      exact ⟨i, by simp [CCall.runK, kmacSqueeze, cSqueeze, h, disciplineK], .done _ h,
        by simp [disciplineK], fun _ => rfl⟩

/-- **C17 (KMAC).** The same for KMAC, for every history of calls after a successful initialisation. -/
theorem C17_KMAC_discipline (hP : P.Valid) (hw : P.width = 200) {sec : Nat}
    (hsec : sec = 128 ∨ sec = 256) (mem i0 : KmacInst) (L : Nat) (hL64 : L + 7 < 2 ^ 64)
    (key : Bytes) (kb : Nat) (cust : Bytes) (cb : Nat) (hk : kb ≤ 8 * key.length) (hk64 : kb + 7 < 2 ^ 64)
    (hkc : Bits.CleanAt key kb)
    (hc : cb ≤ 8 * cust.length) (hc64 : cb + 7 < 2 ^ 64) (hcc : Bits.CleanAt cust cb)
    (h0 : kmacInit P sec mem key kb L cust cb = some (0, i0)) (cs : List CCall) (hcs : ∀ c ∈ cs, c.ok) :
    ∃ xs, runCallsK P i0 cs = some xs ∧ xs.map Prod.fst = codesK L .absorbing cs ∧ ErrorsFrameK i0 xs := by
  obtain ⟨hr, hr2, -, -⟩ := rateBytes_eq hsec
  obtain ⟨m, h1, -⟩ := kmacInit_eq hP hw hsec cust cb hc hc64 hcc mem L key kb hk hk64 hkc
  rw [h1] at h0
  simp only [Option.some.injEq, Prod.mk.injEq, true_and] at h0
  subst h0
  have key : ∀ (cs : List CCall) (s : Stage) (i : CShakeInst), s ≠ .lastBits →
      InStage P (rateBytes sec) L false s i → (∀ c ∈ cs, c.ok) →
      ∃ xs, runCallsK P ⟨i, L⟩ cs = some xs ∧ xs.map Prod.fst = codesK L s cs ∧ ErrorsFrameK ⟨i, L⟩ xs := by
    intro cs
    induction cs with
    | nil => intro s i _ _ _; exact ⟨[], rfl, rfl, trivial⟩
    | cons c cs ih =>
      intro s i hs hi hok
      obtain ⟨i', h1, h2, h3, h4⟩ := disciplineK_step hP hr (by omega) hL64 hs hi c (hok c (by simp))
      obtain ⟨xs, h5, h6, h7⟩ := ih _ _ h3 h2 (fun c hc => hok c (by simp [hc]))
      refine ⟨((disciplineK L s c).1, ⟨i', L⟩) :: xs, by simp [runCallsK, h1, h5],
        by simp [codesK, h6], ?_⟩
      exact ⟨fun h => by rw [h4 h], h7⟩
  exact key cs _ _ (by decide) (.absorbing m) hcs

example : codesK 0 .absorbing [.update [0xFF] 5, .squeeze 8, .update [1] 8, .final, .update [] 0, .squeeze 8,
    .squeeze 3, .squeeze 8] = [1, 1, 0, 0, 1, 0, 0, 1] := by decide

/-! ### TupleHash -/

/-- Calls on a TupleHash instance. -/
inductive TCall
  | update (es : List (Bytes × Nat))
  | final
  | squeeze (outputBitLen : Nat)

/-- The caller's obligations.  Besides buffer and length bounds, an array with a misaligned element has it in
first position (see `C17_TupleHash_midarray` for what happens otherwise). -/
def TCall.ok : TCall → Prop
  | .update es => (∀ u ∈ es, u.2 ≤ 8 * u.1.length ∧ u.2 < 2 ^ 64) ∧
      ((∀ u ∈ es, u.2 % 8 = 0) ∨ ∃ u us, es = u :: us ∧ u.2 % 8 ≠ 0)
  | .final => True
  | .squeeze n => n + 7 < 2 ^ 64

def TCall.run (P : SnP) (i : KmacInst) : TCall → Option (Nat × KmacInst)
  | .update es => tupleUpdate P i es
  | .final => (kmacFinal P i).map fun x => (x.1, x.2.1)
  | .squeeze n => (kmacSqueeze P i n).map fun x => (x.1, x.2.1)

/-- The discipline of TupleHash: as KMAC, except that an update with no element always returns 0. -/
def disciplineT (L : Nat) : Stage → TCall → Nat × Stage
  | s, .update [] => (0, s)
  | .absorbing, .update (u :: us) => if ∀ e ∈ u :: us, e.2 % 8 = 0 then (0, .absorbing) else (1, .absorbing)
  | .absorbing, .final => (0, if L = 0 then .squeezing else .done)
  | .squeezing, .squeeze n => (0, if n % 8 = 0 then .squeezing else .done)
  | s, _ => (1, s)

def runCallsT (P : SnP) (i : KmacInst) : List TCall → Option (List (Nat × KmacInst))
  | [] => some []
  | c :: cs => do
    let x ← c.run P i
    let xs ← runCallsT P x.2 cs
    some (x :: xs)

def codesT (L : Nat) : Stage → List TCall → List Nat
  | _, [] => []
  | s, c :: cs => (disciplineT L s c).1 :: codesT L (disciplineT L s c).2 cs

theorem tupleUpdate_late (i : CShakeInst) (L : Nat) (h : i.phase ≠ .absorbing) (u : Bytes × Nat)
    (us : List (Bytes × Nat)) : tupleUpdate P ⟨i, L⟩ (u :: us) = some (1, ⟨i, L⟩) := by
  by_cases h8 : u.2 % 8 = 0 <;> simp [tupleUpdate, h8, cUpdate, h]

theorem disciplineT_step (hP : P.Valid) {r : Nat} (hr : 0 < r) (hrw : r ≤ P.width) {L : Nat}
    (hL64 : L + 7 < 2 ^ 64) {e : Bool} {s : Stage} (hs : s ≠ .lastBits) {i : CShakeInst}
    (hi : InStage P r L e s i) (c : TCall) (hc : c.ok) :
    ∃ i', c.run P ⟨i, L⟩ = some ((disciplineT L s c).1, ⟨i', L⟩) ∧
      InStage P r L e (disciplineT L s c).2 i' ∧ (disciplineT L s c).2 ≠ .lastBits ∧
      ((disciplineT L s c).1 = 1 → i' = i) := by
  cases c with
  | final =>
    obtain ⟨i', h1, h2, h3, h4⟩ := disciplineK_step hP hr hrw hL64 hs hi .final trivial
    have e : disciplineT L s .final = disciplineK L s .final := by cases s <;> rfl
    rw [e]
    exact ⟨i', h1, h2, h3, h4⟩
  | squeeze n =>
    obtain ⟨i', h1, h2, h3, h4⟩ := disciplineK_step hP hr hrw hL64 hs hi (.squeeze n) hc
    have e : disciplineT L s (.squeeze n) = disciplineK L s (.squeeze n) := by cases s <;> rfl
    rw [e]
    exact ⟨i', h1, h2, h3, h4⟩
  | update es =>
    cases es with
    | nil => exact ⟨i, by simp [TCall.run, tupleUpdate, disciplineT], by simpa [disciplineT] using hi,
        by simpa [disciplineT] using hs, fun _ => rfl⟩
    | cons u us =>
      obtain ⟨hb, ha⟩ := hc
      cases hi with
      | absorbing m =>
        rcases ha with ha | ⟨_, _, he, ha⟩
        · obtain ⟨m', h1, -⟩ := tupleUpdate_eq hP hr hrw L e (u :: us) m (fun x hx => ⟨ha x hx, hb x hx⟩)
          refine ⟨cabsd P r L m' e, ?_⟩
          simp only [disciplineT, TCall.run, h1]
          rw [if_pos ha]
          exact ⟨rfl, .absorbing _, by decide, by simp⟩
        · simp only [List.cons.injEq] at he
          obtain ⟨rfl, rfl⟩ := he
          refine ⟨cabsd P r L m e, ?_⟩
          simp only [disciplineT, TCall.run]
          rw [if_neg (fun h => ha (h u (by simp)))]
          exact ⟨by simp [tupleUpdate, ha], .absorbing _, by decide, fun _ => by trivial⟩
      | lastBits i msg R h => exact absurd rfl hs
      | squeezing i m d k =>
        exact ⟨_, by simp only [TCall.run, disciplineT]; exact tupleUpdate_late _ _ (by simp [csqd]) _ _,
          .squeezing i m d k, by simp [disciplineT], fun _ => rfl⟩
      | done i h =>
        exact ⟨_, by simp only [TCall.run, disciplineT]; exact tupleUpdate_late _ _ (by simp [h]) _ _,
          .done i h, by simp [disciplineT], fun _ => rfl⟩

/-- **C17 (TupleHash).**  Full statement: as for KMAC.  It fails in two corners: an update with no element
returns 0 in every phase (`disciplineT`), and an array with a misaligned element that is not the first is
absorbed up to that element although 1 is returned (`C17_TupleHash_midarray`); `TCall.ok` excludes the
latter.  Otherwise: after a successful initialisation, for every history of calls, no undefined behaviour, the
return codes are those of the discipline, and a call that returns 1 leaves the instance unchanged. -/
theorem C17_TupleHash_discipline_partial (hP : P.Valid) (hw : P.width = 200) {sec : Nat}
    (hsec : sec = 128 ∨ sec = 256) (mem i0 : KmacInst) (L : Nat) (hL64 : L + 7 < 2 ^ 64)
    (cust : Bytes) (cb : Nat) (hc : cb ≤ 8 * cust.length) (hc64 : cb + 7 < 2 ^ 64)
    (h0 : tupleInit P sec mem L cust cb = some (0, i0)) (cs : List TCall) (hcs : ∀ c ∈ cs, c.ok) :
    ∃ xs, runCallsT P i0 cs = some xs ∧ xs.map Prod.fst = codesT L .absorbing cs ∧ ErrorsFrameK i0 xs := by
  obtain ⟨hr, hr2, -, -⟩ := rateBytes_eq hsec
  have hi := cInit_eq hP hw hsec mem.csi L tupleName 72 cust cb rfl (by simp [tupleName]) hc hc64
  rw [if_neg (by simp)] at hi
  simp only [tupleInit, hi, Option.bind_eq_bind, Option.bind_some, ne_eq, not_true_eq_false, if_false,
    Option.some.injEq, Prod.mk.injEq, true_and] at h0
  subst h0
  have key : ∀ (cs : List TCall) (s : Stage) (i : CShakeInst), s ≠ .lastBits →
      InStage P (rateBytes sec) L false s i → (∀ c ∈ cs, c.ok) →
      ∃ xs, runCallsT P ⟨i, L⟩ cs = some xs ∧ xs.map Prod.fst = codesT L s cs ∧ ErrorsFrameK ⟨i, L⟩ xs := by
    intro cs
    induction cs with
    | nil => intro s i _ _ _; exact ⟨[], rfl, rfl, trivial⟩
    | cons c cs ih =>
      intro s i hs hi hok
      obtain ⟨i', h1, h2, h3, h4⟩ := disciplineT_step hP hr (by omega) hL64 hs hi c (hok c (by simp))
      obtain ⟨xs, h5, h6, h7⟩ := ih _ _ h3 h2 (fun c hc => hok c (by simp [hc]))
      refine ⟨((disciplineT L s c).1, ⟨i', L⟩) :: xs, by simp [runCallsT, h1, h5],
        by simp [codesT, h6], ?_⟩
      exact ⟨fun h => by rw [h4 h], h7⟩
  exact key cs _ _ (by decide) (.absorbing _) hcs

example : codesT 0 .absorbing [.update [([0xFF], 5)], .squeeze 8, .update [([1], 8), ([], 0)], .final,
    .update [([1], 8)], .update [], .squeeze 8, .squeeze 3, .squeeze 8] = [1, 1, 0, 0, 1, 0, 0, 0, 1] := by
  decide

/-- **C17 fails for TupleHash** when a misaligned element is not the first of the array: `TupleHash_Update`
returns 1, but the instance is the one that results from the elements before it. -/
theorem C17_TupleHash_midarray (hP : P.Valid) {r : Nat} (hr : 0 < r) (hrw : r ≤ P.width) (L : Nat) (e : Bool)
    (m : Bytes) (us : List (Bytes × Nat))
    (hus : ∀ u ∈ us, u.2 % 8 = 0 ∧ u.2 ≤ 8 * u.1.length ∧ u.2 < 2 ^ 64) (x : Bytes × Nat)
    (hx : x.2 % 8 ≠ 0) (vs : List (Bytes × Nat)) :
    ∃ i', tupleUpdate P ⟨cabsd P r L m e, L⟩ us = some (0, i') ∧
      tupleUpdate P ⟨cabsd P r L m e, L⟩ (us ++ x :: vs) = some (1, i') := by
  have key : ∀ (us : List (Bytes × Nat)) (i i' : KmacInst), tupleUpdate P i us = some (0, i') →
      tupleUpdate P i (us ++ x :: vs) = some (1, i') := by
    intro us
    induction us with
    | nil => intro i i' h; simp [tupleUpdate] at h; simp [tupleUpdate, hx, h]
    | cons u us ih =>
      intro i i' h
      simp only [tupleUpdate, List.cons_append] at h ⊢
      by_cases h8 : u.2 % 8 = 0
      · simp only [h8, ne_eq, not_true_eq_false, if_false, Option.bind_eq_bind, Option.bind_eq_some_iff] at h ⊢
        obtain ⟨⟨c1, i1⟩, a1, a2⟩ := h
        by_cases hc1 : c1 = 0
        · simp only [hc1, not_true_eq_false, if_false, Option.bind_eq_some_iff] at a2
          obtain ⟨⟨c2, i2⟩, b1, b2⟩ := a2
          by_cases hc2 : c2 = 0
          · simp only [hc2, not_true_eq_false, if_false] at b2
            exact ⟨_, a1, by simp [hc1, b1, hc2, ih _ _ b2]⟩
          · simp [hc2] at b2
        · simp [hc1] at a2
      · simp [h8] at h
  obtain ⟨m', h1, -⟩ := tupleUpdate_eq hP hr hrw L e us m hus
  exact ⟨_, h1, key us _ _ h1⟩

/-- … and this really changes the instance, e.g. with the one-byte element `01` before the misaligned one. -/
theorem C17_TupleHash_midarray_changes (hP : P.Valid) {r : Nat} (hr : 3 < r) (hrw : r ≤ P.width) (L : Nat)
    (e : Bool) (m : Bytes) :
    ∃ i', tupleUpdate P ⟨cabsd P r L m e, L⟩ [([1], 8), ([1], 3)] = some (1, i') ∧
      i' ≠ ⟨cabsd P r L m e, L⟩ := by
  obtain ⟨m', h1, h2⟩ := tupleUpdate_eq hP (by omega) hrw L e [([1], 8)] m (by simp)
  obtain ⟨i', h3, h4⟩ := C17_TupleHash_midarray hP (by omega) hrw L e m [([1], 8)] (by simp) ([1], 3) (by simp) []
  rw [h1] at h3
  simp only [Option.some.injEq, Prod.mk.injEq, true_and] at h3
  subst h3
  refine ⟨_, h4, ?_⟩
  intro h
  have h5 := congrArg (fun i : KmacInst => i.csi.sponge.byteIOIndex) h
  simp only [cabsd, Sponge.absd_idx (by omega : 0 < r)] at h5
  have h6 := congrArg List.length h2
  have h7 : (List.flatMap encode_string (List.map bitsOf [([1], 8)])).length = 24 := by
    have e1 : (bitsOf ([1], 8)).length = 8 := by decide
    have e2 := congrArg List.length (leftEncode_nat (x := 8) (by omega))
    have e3 : (leftEncode (BitVec.ofNat 64 8)).length = 2 := by decide
    rw [Bits.length_ofBytes, e3] at e2
    simp only [List.map_cons, List.map_nil, List.flatMap_cons, List.flatMap_nil, List.append_nil,
      encode_string, List.length_append, e1, ← e2]
  rw [List.length_append, h7] at h6
  simp only [Bits.length_ofBytes] at h6
  have : m'.length = m.length + 3 := by omega
  rw [this] at h5
  have a := Nat.mod_add_div m.length r
  have b := Nat.mod_add_div (m.length + 3) r
  have c := Nat.mod_lt m.length (by omega : 0 < r)
  rw [h5] at b
  have d : r * ((m.length + 3) / r) = r * (m.length / r) + 3 := by omega
  have f : r ∣ 3 := by
    have : 3 = r * ((m.length + 3) / r) - r * (m.length / r) := by omega
    rw [this]; exact Nat.dvd_sub ⟨_, rfl⟩ ⟨_, rfl⟩
  have := Nat.le_of_dvd (by omega) f
  omega

end SP800185
