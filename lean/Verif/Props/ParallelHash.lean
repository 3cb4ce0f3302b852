import Verif.Proofs.ParallelHash
import Verif.Props.SP800185

/-!
# Properties C15, C17 (ParallelHash)

`P` is any SnP of width 1600 bits obeying its contract, `f` the bit-level function it computes, and `cfgs` the
parallel implementations compiled in: any list of parallelism degrees, each processing its leaves with the
generic loop or with the fast loop.
-/

namespace ParallelHash
open SP800185 PlSnP Spec

variable {P : SnP}

/-- Successive `ParallelHash_Update` calls. -/
def phUpdates (P : SnP) (sec : Nat) (cfgs : List Cfg) (i : PhInst) :
    List (Bytes × Nat) → Option (List Nat × PhInst)
  | [] => some ([], i)
  | u :: us => do
    let (c, i) ← phUpdate P sec cfgs i u.1 u.2
    let (cs, i) ← phUpdates P sec cfgs i us
    some (c :: cs, i)

/-- Successive `ParallelHash_Squeeze` calls. -/
def phSqueezes (P : SnP) (i : PhInst) : List Nat → Option (List Nat × PhInst × Bytes)
  | [] => some ([], i, [])
  | n :: ns => do
    let (c, i, o) ← phSqueeze P i n
    let (cs, i, os) ← phSqueezes P i ns
    some (c :: cs, i, o ++ os)

/-- What is required of the block length and of the parallel implementations: no byte offset computed by
the SIMD code reaches 2^32 (see `C15_large_blocks_collide` for what happens otherwise). -/
def CfgsFit (sec B : Nat) (cfgs : List Cfg) : Prop :=
  ∀ cfg ∈ cfgs, 2 ≤ cfg.degree ∧ (cfg.degree - 1) * B + rateBytes sec < 2 ^ 32 ∧
    (cfg.kind = .loop ∨ cfg.kind = .fastLoop)

theorem CfgsFit.ok {sec B : Nat} (hsec : sec = 128 ∨ sec = 256) {cfgs : List Cfg} (h : CfgsFit sec B cfgs) :
    ∀ cfg ∈ cfgs, CfgOk P (leaf sec B) cfg := by
  intro cfg hc
  obtain ⟨h1, h2, h3⟩ := h cfg hc
  refine ⟨h1, ?_, ?_⟩
  · show (cfg.degree - 1) * B + rateBytes sec / 8 * 8 < 2 ^ 32
    rw [(capBytes_eq hsec).1]; exact h2
  · intro F hF
    rcases h3 with h3 | h3 <;> rw [h3] at hF <;> cases hF

theorem phSqueezes_eq (ns : List Nat) : ∀ (phi : PhInst) (j : CShakeInst) (cs : List Nat) (o : Bytes),
    cSqueezes P (toC phi) ns = some (cs, j, o) →
    phSqueezes P phi ns = some (cs, ofC phi j, o) ∧ toC (ofC phi j) = j := by
  induction ns with
  | nil =>
    intro phi j cs o h
    simp only [cSqueezes, Option.some.injEq, Prod.mk.injEq] at h
    obtain ⟨rfl, rfl, rfl⟩ := h
    exact ⟨rfl, rfl⟩
  | cons n ns ih =>
    intro phi j cs o h
    simp only [cSqueezes, Option.bind_eq_bind, Option.bind_eq_some_iff] at h
    obtain ⟨⟨c, k, o1⟩, h1, ⟨cs', j', o2⟩, h2, h3⟩ := h
    simp only [Option.some.injEq, Prod.mk.injEq] at h3
    obtain ⟨rfl, rfl, rfl⟩ := h3
    have hk := cSqueeze_toC h1
    simp only at h2
    rw [← hk] at h2
    obtain ⟨h4, h5⟩ := ih _ _ _ _ h2
    refine ⟨?_, h5⟩
    simp only [phSqueezes, phSqueeze_eq, h1, Option.map_some, Option.bind_eq_bind, Option.bind_some]
    rw [h4]
    rfl

section
variable (hP : P.Valid) (hw : P.width = 200) {sec : Nat} (hsec : sec = 128 ∨ sec = 256) {B : Nat}
  (hB8 : 8 ≤ B) (hB2 : ∃ k, B = 2 ^ k)

theorem pow2_mod8 (hB8 : 8 ≤ B) (hB2 : ∃ k, B = 2 ^ k) : B % 8 = 0 := by
  obtain ⟨k, rfl⟩ := hB2
  have hk : 3 ≤ k := by
    by_contra h
    have : 2 ^ k ≤ 2 ^ 2 := Nat.pow_le_pow_right (by omega) (by omega)
    omega
  obtain ⟨j, rfl⟩ : ∃ j, k = 3 + j := ⟨k - 3, by omega⟩
  rw [Nat.pow_add]
  exact Nat.mul_mod_right 8 _

include hP hw hsec hB8 hB2

theorem phUpdates_eq (cfgs : List Cfg) (hcfg : CfgsFit sec B cfgs) {m0 : Bytes} {L : Nat}
    (us : List (Bytes × Nat)) : ∀ {M : Bytes} {q f : SpongeInst} {n k T : Nat},
    (∀ u ∈ us, u.2 % 8 = 0 ∧ u.2 ≤ 8 * u.1.length) →
    TreeOk P (rateBytes sec) B 0x1F#8 (capBytes sec) m0 M q f n k → T = 8 * M.length % 2 ^ 64 →
    ∃ M' q' f' n' k', phUpdates P sec cfgs (phabs q f L B n T) us =
        some (List.replicate us.length 0, phabs q' f' L B n' (8 * M'.length % 2 ^ 64)) ∧
      TreeOk P (rateBytes sec) B 0x1F#8 (capBytes sec) m0 M' q' f' n' k' ∧
      Bits.ofBytes M' = Bits.ofBytes M ++ us.flatMap bitsOf := by
  induction us with
  | nil => intro M q f n k T _ h hT; exact ⟨M, q, f, n, k, by rw [hT]; rfl, h, by simp⟩
  | cons u us ih =>
    intro M q f n k T hus h hT
    obtain ⟨h1, h2⟩ := hus u (by simp)
    have hok := CfgsFit.ok (P := P) hsec hcfg
    obtain ⟨q', f', n', k', h3, h4⟩ := phUpdate_eq hP hw hsec (by omega) (pow2_mod8 hB8 hB2) cfgs hok
      (L := L) (T := T) u.1 u.2 h1 h2 h
    have hT' : (T + u.2) % 2 ^ 64 = 8 * (M ++ u.1.take (u.2 / 8)).length % 2 ^ 64 := by
      rw [hT, Nat.mod_add_mod]
      congr 1
      simp; omega
    obtain ⟨M', q2, f2, n2, k2, h5, h6, h7⟩ := ih (fun u hu => hus u (by simp [hu])) h4 hT'
    refine ⟨M', q2, f2, n2, k2, ?_, h6, ?_⟩
    · simp only [phUpdates, h3, Option.bind_eq_bind, Option.bind_some, h5, List.length_cons,
        List.replicate_succ]
    · rw [h7, Bits.ofBytes_append, List.flatMap_cons, List.append_assoc]
      congr 2
      rw [bitsOf, ← Bits.take_ofBytes]
      congr 1; omega

end

/-- The cSHAKE instance behind a ParallelHash instance about to be finalised. -/
def readyC (hP : P.Valid) (hw : P.width = 200) {sec : Nat} (hsec : sec = 128 ∨ sec = 256) (L : Nat) (m : Bytes) :
    Ready P (rateBytes sec) L false (cabsd P (rateBytes sec) L m false) (Bits.ofBytes m) where
  m := m
  d := 0x04
  l := [false, false]
  delim := suf_delim false
  bits := rfl
  phase := rfl
  len := rfl
  fin := by
    obtain ⟨hr, hr2, -, -⟩ := rateBytes_eq hsec
    exact cFinal_cabsd hP hr (by omega) L m

section
variable (hP : P.Valid) (hw : P.width = 200) (f : Bits → Bits)
  (hf : ∀ s : Bytes, s.length = 200 → f (Bits.ofBytes s) = Bits.ofBytes (P.permute s))
  {sec : Nat} (hsec : sec = 128 ∨ sec = 256)
include hP hw hf hsec

/-- The chaining values are those of the standard. -/
theorem leafCVs_spec (B n : Nat) (M : Bytes) :
    Bits.ofBytes (leafCVs P (rateBytes sec) B 0x1F#8 (capBytes sec) n M) =
      (List.range n).flatMap fun i =>
        Spec.cSHAKE f sec (((Bits.ofBytes M).drop (i * (8 * B))).take (8 * B)) (2 * sec) [] [] := by
  obtain ⟨hr, hr2, hr8, -⟩ := rateBytes_eq hsec
  obtain ⟨-, -, e3, -⟩ := capBytes_eq hsec
  rw [leafCVs_eq_range]
  induction List.range n with
  | nil => simp
  | cons i l ih =>
    rw [List.flatMap_cons, List.flatMap_cons, Bits.ofBytes_append, ih]
    congr 1
    rw [Sponge.out_spec hP f (by rw [hw]; exact hf) hr (by omega) _ _ 0x1F#8 (suf_delim true), hw]
    have h := cSHAKE_string f hsec [] 0 [] 0 rfl (by simp) (by decide) (by simp) (by decide)
      (Bits.cleanAt_of_aligned _ _ rfl) (Bits.ofBytes ((M.drop (i * B)).take B)) (2 * sec)
    simp only [bitsOf, and_self, if_true, Bits.ofBytes_nil, List.nil_append, List.take_nil, decide_true] at h
    rw [e3, h, ← Bits.take_ofBytes, ← Bits.drop_ofBytes, show 8 * (i * B) = i * (8 * B) by
      rw [← Nat.mul_assoc, ← Nat.mul_assoc, Nat.mul_comm 8 i]]

/-- The string absorbed by the final node is that of the standard. -/
theorem parallel_string {B : Nat} (hB : 0 < B) (hB64 : B < 2 ^ 64) (cust : Bytes) (cb : Nat)
    (hc : cb ≤ 8 * cust.length) (hc64 : cb + 7 < 2 ^ 64) (hclean : Bits.CleanAt cust cb)
    (M : Bytes) (hM : M.length + B < 2 ^ 64) (L : Nat) (hL : L < 2 ^ 64) (Lout : Nat) :
    Spec.sponge 1600 f (8 * rateBytes sec) (Bits.ofBytes (phPrefix sec B cust cb ++
        leafCVs P (rateBytes sec) B 0x1F#8 (capBytes sec) (blocksOf M.length B) M ++
        (rightEncode (BitVec.ofNat 64 (blocksOf M.length B)) ++ rightEncode (BitVec.ofNat 64 L))) ++
        sufBits false) Lout =
      Spec.cSHAKE f sec (parallelString f sec (Bits.ofBytes M) B ++ right_encode L) Lout
        (ascii [80, 97, 114, 97, 108, 108, 101, 108, 72, 97, 115, 104]) (bitsOf (cust, cb)) := by
  have hname : bitsOf (nameBytes.drop 2, 96) =
      ascii [80, 97, 114, 97, 108, 108, 101, 108, 72, 97, 115, 104] := by decide
  have hn : ((Bits.ofBytes M).length + 8 * B - 1) / (8 * B) = blocksOf M.length B := by
    unfold blocksOf
    rw [Bits.length_ofBytes, ← Nat.div_div_eq_div_mul]
    congr 1; omega
  have hn64 : blocksOf M.length B < 2 ^ 64 := by
    unfold blocksOf
    exact lt_of_le_of_lt (Nat.div_le_self _ _) (by omega)
  have h := cSHAKE_string f hsec (nameBytes.drop 2) 96 cust cb (by decide) (by decide) (by decide) hc hc64 hclean
    (parallelString f sec (Bits.ofBytes M) B ++ right_encode L) Lout
  rw [hname] at h
  rw [← h]
  congr 1
  unfold phPrefix parallelString
  simp only [hn, Bits.ofBytes_append, leafCVs_spec hP hw f hf hsec, leftEncode_nat hB64, rightEncode_nat hn64,
    rightEncode_nat hL, List.append_assoc]
  rfl

variable {B : Nat} (hB8 : 8 ≤ B) (hB2 : ∃ k, B = 2 ^ k) (hB64 : B < 2 ^ 64)
  (cfgs : List Cfg) (hcfg : CfgsFit sec B cfgs)
  (cust : Bytes) (cb : Nat) (hc : cb ≤ 8 * cust.length) (hc64 : cb + 7 < 2 ^ 64) (hclean : Bits.CleanAt cust cb)
  (us : List (Bytes × Nat)) (hus : ∀ u ∈ us, u.2 % 8 = 0 ∧ u.2 ≤ 8 * u.1.length)
  (htot : (us.flatMap bitsOf).length < 2 ^ 64)
include hB8 hB2 hB64 hcfg hc hc64 hclean hus htot

theorem ph_ready (mem : PhInst) (L : Nat) (hL : L < 2 ^ 64) :
    ∃ i0 i1 phi m, phInit P sec mem B L cust cb = some (0, i0) ∧
      phUpdates P sec cfgs i0 us = some (List.replicate us.length 0, i1) ∧ phi.fixedOutputLength = L ∧
      phFinal P sec i1 = (cFinal P (cabsd P (rateBytes sec) L m false)).map
        (fun x => (x.1, ofC phi x.2.1, x.2.2)) ∧
      ∀ Lout, Spec.sponge 1600 f (8 * rateBytes sec) (Bits.ofBytes m ++ sufBits false) Lout =
        Spec.cSHAKE f sec (parallelString f sec (us.flatMap bitsOf) B ++ right_encode L) Lout
          (ascii [80, 97, 114, 97, 108, 108, 101, 108, 72, 97, 115, 104]) (bitsOf (cust, cb)) := by
  have h0 := phInit_eq hP hw hsec mem B L hB8 hB2 hB64 cust cb hc hc64
  obtain ⟨M, q, fn, n, k, h1, h2, h3⟩ := phUpdates_eq hP hw hsec hB8 hB2 cfgs hcfg (L := L) us hus
    (treeOk_init (P := P) (r := rateBytes sec) (d := 0x1F#8) (cv := capBytes sec) (show 0 < B by omega)
      (phPrefix sec B cust cb) mem.queueNode) (T := 0) rfl
  rw [Bits.ofBytes_nil, List.nil_append] at h3
  have hlen : 8 * M.length < 2 ^ 64 := by rw [← Bits.length_ofBytes, h3]; exact htot
  have hB63 : B ≤ 2 ^ 63 := by
    obtain ⟨j, rfl⟩ := hB2
    exact Nat.pow_le_pow_right (by omega) (Nat.lt_succ_iff.1 ((Nat.pow_lt_pow_iff_right (by omega)).1 hB64))
  have hMB : M.length + B < 2 ^ 64 := by omega
  obtain ⟨q', h4⟩ := phFinal_eq hP hw hsec (L := L) hMB h2 (Nat.mod_eq_of_lt hlen)
  refine ⟨_, _, _, _, h0, h1, ?_, h4, fun Lout => ?_⟩
  · rfl
  · rw [parallel_string hP hw f hf hsec (by omega) hB64 cust cb hc hc64 hclean M hMB L hL, h3]

/-- **C15.** ParallelHash with fixed output length `L`: for every block length the code accepts, every
customisation string, every partition of the message into byte-aligned updates and every set of parallel
implementations compiled in, all calls succeed and the output is ParallelHash of SP 800-185.

Partial: the full property has no bound on the block length; without `CfgsFit` it is false
(`C15_large_blocks_collide`, `C15_huge_blocks_undefined`). -/
theorem C15_ParallelHash_partial (mem : PhInst) (L : Nat) (hL : L ≠ 0) (hL64 : L + 7 < 2 ^ 64) :
    ∃ i0 i1 i2 out, phInit P sec mem B L cust cb = some (0, i0) ∧
      phUpdates P sec cfgs i0 us = some (List.replicate us.length 0, i1) ∧
      phFinal P sec i1 = some (0, i2, out) ∧
      Represents out (Spec.ParallelHash f sec (us.flatMap bitsOf) B L (bitsOf (cust, cb))) := by
  obtain ⟨hr, hr2, -, -⟩ := rateBytes_eq hsec
  obtain ⟨i0, i1, phi, m, h0, h1, -, h2, h3⟩ := ph_ready hP hw f hf hsec hB8 hB2 hB64 cfgs hcfg cust cb hc hc64
    hclean us hus htot mem L (by omega)
  obtain ⟨i', o, h4, -, h5⟩ := ready_fixed hP hw f hf hr (by omega) (readyC hP hw hsec L m) hL hL64
  refine ⟨i0, i1, _, o, h0, h1, by rw [h2, h4]; rfl, ?_⟩
  rw [h3] at h5
  exact h5

/-- **C15.** The extendable-output form (`outputBitLen = 0`): any byte-aligned squeezes followed by one of
any bit length give a prefix of the ParallelHashXOF output. -/
theorem C15_ParallelHashXOF_partial (mem : PhInst) (ns : List Nat) (hns : ∀ n ∈ ns, n % 8 = 0 ∧ n + 7 < 2 ^ 64)
    (nl : Nat) (hnl : nl + 7 < 2 ^ 64) :
    ∃ i0 i1 i2 i3 i4 o1 o2, phInit P sec mem B 0 cust cb = some (0, i0) ∧
      phUpdates P sec cfgs i0 us = some (List.replicate us.length 0, i1) ∧
      phFinal P sec i1 = some (0, i2, []) ∧
      phSqueezes P i2 ns = some (List.replicate ns.length 0, i3, o1) ∧
      phSqueeze P i3 nl = some (0, i4, o2) ∧
      Represents (o1 ++ o2)
        (Spec.ParallelHashXOF f sec (us.flatMap bitsOf) B (ns.sum + nl) (bitsOf (cust, cb))) := by
  obtain ⟨hr, hr2, -, -⟩ := rateBytes_eq hsec
  obtain ⟨i0, i1, phi, m, h0, h1, hphi, h2, h3⟩ := ph_ready hP hw f hf hsec hB8 hB2 hB64 cfgs hcfg cust cb hc hc64
    hclean us hus htot mem 0 (by omega)
  obtain ⟨j1, j2, j3, o1, o2, h4, h5, h6, h7⟩ := ready_xof hP hw f hf hr (by omega) (readyC hP hw hsec 0 m) ns hns
    nl hnl
  have hj1 : toC (ofC phi j1) = j1 := by
    have hfin := (readyC hP hw hsec 0 m).fin
    rw [hfin] at h4
    simp only [cSwitch, cabsd, ne_eq, not_true_eq_false, if_false, Option.some.injEq, Prod.mk.injEq] at h4
    rw [← h4.2.1]
    simp only [toC, ofC, hphi]
  rw [← hj1] at h5
  obtain ⟨h8, h9⟩ := phSqueezes_eq ns _ _ _ _ h5
  rw [← h9] at h6
  refine ⟨i0, i1, ofC phi j1, _, ofC (ofC (ofC phi j1) j2) j3, o1, o2, h0, h1, by rw [h2, h4]; rfl, h8, ?_, ?_⟩
  · rw [phSqueeze_eq, h6]; rfl
  · rw [h3] at h7
    exact h7

omit us hus htot in
/-- **C15.** The one-call function. -/
theorem C15_ParallelHash_one_call_partial (stack : PhInst) (L : Nat) (hL : L ≠ 0) (hL64 : L + 7 < 2 ^ 64)
    (input : Bytes) (n : Nat) (h8 : n % 8 = 0) (hin : n ≤ 8 * input.length) (hn : n < 2 ^ 64) :
    ∃ out, ParallelHash P sec cfgs stack input n B L cust cb = some (0, out) ∧
      Represents out (Spec.ParallelHash f sec (bitsOf (input, n)) B L (bitsOf (cust, cb))) := by
  obtain ⟨i0, i1, i2, out, h0, h1, h2, h3⟩ := C15_ParallelHash_partial hP hw f hf hsec hB8 hB2 hB64 cfgs hcfg cust cb hc
    hc64 hclean [(input, n)] (by simpa using ⟨h8, hin⟩) (by simp [bitsOf]; omega) stack L hL hL64
  simp only [phUpdates, Option.bind_eq_bind, Option.bind_eq_some_iff, List.length_cons,
    List.length_nil, List.replicate_succ, List.replicate_zero, Option.some.injEq, Prod.mk.injEq,
    List.cons.injEq, and_true] at h1
  obtain ⟨⟨c, i⟩, h4, ⟨cs, i'⟩, h5, ⟨hc, -⟩, hi⟩ := h1
  simp only [Prod.mk.injEq] at h5 hc hi
  obtain ⟨-, rfl⟩ := h5
  subst hc hi
  refine ⟨out, ?_, by simpa using h3⟩
  simp [ParallelHash, hL, h0, h4, h2]

end

/-- **C15.** `ParallelHash_Initialize` succeeds exactly for the block lengths that are powers of two, at
least 8; otherwise it changes nothing. -/
theorem C15_blockLen (hP : P.Valid) (hw : P.width = 200) {sec : Nat} (hsec : sec = 128 ∨ sec = 256)
    (mem : PhInst) (B L : Nat) (hB64 : B < 2 ^ 64) (cust : Bytes) (cb : Nat)
    (hc : cb ≤ 8 * cust.length) (hc64 : cb + 7 < 2 ^ 64) :
    ∃ c i, phInit P sec mem B L cust cb = some (c, i) ∧ (c = 0 ↔ 8 ≤ B ∧ ∃ k, B = 2 ^ k) ∧
      (c ≠ 0 → c = 1 ∧ i = mem) := by
  by_cases h : 8 ≤ B ∧ ∃ k, B = 2 ^ k
  · exact ⟨0, _, phInit_eq hP hw hsec mem B L h.1 h.2 hB64 cust cb hc hc64, by simp [h], by simp⟩
  · exact ⟨1, mem, phInit_bad sec mem B L hB64 h cust cb, by simp [h], by simp⟩

-- hypotheses met: 8-byte blocks, implementations of degree 8, 4 and 2, updates of 5, 0, 130 and 3 bytes
example (mem : PhInst) : ∃ f : Bits → Bits, ∃ i0 i1 i2 out,
    phInit toy1600 128 mem 8 100 [0x53, 0x05] 11 = some (0, i0) ∧
    phUpdates toy1600 128 [⟨8, .fastLoop⟩, ⟨4, .loop⟩, ⟨2, .loop⟩] i0
      [(Bytes.zeros 5, 40), ([], 0), (Bytes.zeros 130, 1040), ([1, 2, 3, 4], 24)] = some ([0, 0, 0, 0], i1) ∧
    phFinal toy1600 128 i1 = some (0, i2, out) ∧
    Represents out (Spec.ParallelHash f 128
      ([(Bytes.zeros 5, 40), ([], 0), (Bytes.zeros 130, 1040), ([1, 2, 3, 4], 24)].flatMap bitsOf) 8 100
      (bitsOf ([0x53, 0x05], 11))) := by
  obtain ⟨f, hf⟩ := exists_bitLevel toy1600
  refine ⟨f, ?_⟩
  exact C15_ParallelHash_partial toy1600_valid rfl f hf (Or.inl rfl) (by decide) ⟨3, by decide⟩ (by decide)
    [⟨8, .fastLoop⟩, ⟨4, .loop⟩, ⟨2, .loop⟩]
    (by
      intro cfg h
      simp only [List.mem_cons, List.not_mem_nil, or_false] at h
      rcases h with rfl | rfl | rfl <;> simp [rateBytes])
    [0x53, 0x05] 11 (by decide) (by decide) (by unfold Bits.CleanAt; decide)
    [(Bytes.zeros 5, 40), ([], 0), (Bytes.zeros 130, 1040), ([1, 2, 3, 4], 24)]
    (by intro u hu; fin_cases hu <;> simp) (by simp [bitsOf]) mem 100 (by decide) (by decide)

/-! ## The bound on the block length is needed -/

/-- The chaining values of two blocks of 2^32 bytes, computed by the generic loop of parallelism degree 2,
do not depend on the second block except for its last 88 bytes. -/
theorem leafBatch_wrap (hP : P.Valid) (hw : P.width = 200) (A : Bytes) (hA : A.length = 2 ^ 32) (Z : Bytes)
    (hZ : Z.length = 88) :
    ∃ cvs, ∀ W : Bytes, W.length = 2 ^ 32 - 88 →
      leafBatch P (leaf 128 (2 ^ 32)) ⟨2, .loop⟩ (A ++ (W ++ Z)) = some cvs := by
  obtain ⟨t1, t2, g1, g2, h⟩ := absorbLoop_wrap hP 21 (by omega) (by omega) (2 ^ 32 + 1) P.init P.init A
    (2 ^ 32) (by omega) (by omega) (by simp [SnP.init]) (by simp [SnP.init])
  have e : 2 ^ 32 / (21 * 8) * (21 * 8) = 2 ^ 32 - 88 := by norm_num
  rw [e] at h
  refine ⟨(P.permute (Bytes.xorAt (Bytes.xorAt (Bytes.xorAt t1 0 (A.drop (2 ^ 32 - 88))) 88 [0x1F]) 167
      [0x80])).take 32 ++
    (P.permute (Bytes.xorAt (Bytes.xorAt (Bytes.xorAt t2 0 Z) 88 [0x1F]) 167 [0x80])).take 32, fun W hW => ?_⟩
  have d1 : ((A ++ (W ++ Z)).drop (2 ^ 32 - 88)).take 88 = A.drop (2 ^ 32 - 88) := by
    rw [List.drop_append_of_le_length (by omega), List.take_append_of_le_length (by simp; omega),
      List.take_of_length_le (by simp; omega)]
  have d2 : (A ++ (W ++ Z)).drop (2 ^ 32 - 88 + 2 ^ 32) = Z := by
    rw [List.drop_append, List.drop_eq_nil_of_le (by omega), List.nil_append,
      show 2 ^ 32 - 88 + 2 ^ 32 - A.length = W.length by omega]
    simp
  have d3 : (A ++ (W ++ Z)).length = 2 ^ 33 := by simp [hA, hW, hZ]
  have hloop : absorbLoop P 21 (2 ^ 29) (2 ^ 32 + 1) (List.replicate 2 P.init) (A ++ (W ++ Z)) (2 ^ 32) =
      some ([t1, t2], 2 ^ 32 - 88) := h (W ++ Z)
  have hl : leaf 128 (2 ^ 32) = ⟨21, 4, 2 ^ 32, 0x1F⟩ := by
    simp [leaf, rateBytes, capBytes]
  unfold leafBatch
  rw [hl]
  simp only [show (2 : Nat) ^ 32 / 8 % 2 ^ 32 = 2 ^ 29 by norm_num, hloop, Option.bind_eq_bind, Option.bind_some]
  unfold finishLeaves
  simp only [show (2 ^ 32 + 2 ^ 64 - (2 ^ 32 - 88)) % 2 ^ 64 % 2 ^ 32 = 88 by norm_num]
  generalize hX : A ++ (W ++ Z) = X at *
  have r1 : SnP.readBuf ((X.drop (2 ^ 32 - 88)).drop (0 * 2 ^ 32)) 88 = some (A.drop (2 ^ 32 - 88)) := by
    unfold SnP.readBuf
    rw [Nat.zero_mul, List.drop_zero, if_pos (by rw [List.length_drop]; omega), d1]
  have r2 : SnP.readBuf ((X.drop (2 ^ 32 - 88)).drop ((0 + 1) * 2 ^ 32)) 88 = some Z := by
    unfold SnP.readBuf
    rw [List.drop_drop, Nat.zero_add, Nat.one_mul, d2, if_pos (by omega), List.take_of_length_le (by omega)]
  have a1 : ∀ s x : Bytes, s.length = P.width → x.length = 88 → SnP.addBytes s x 0 = some (Bytes.xorAt s 0 x) := by
    intro s x hs hx; unfold SnP.addBytes; rw [if_pos (by omega)]
  have a2 : ∀ s : Bytes, ∀ b o, s.length = P.width → o < 200 → SnP.addByte s b o = some (Bytes.xorAt s o [b]) := by
    intro s b o hs ho
    unfold SnP.addByte
    simp [SnP.addBytes]; omega
  simp only [padLeaves, r1, r2, Option.bind_eq_bind, Option.bind_some]
  rw [a1 t1 _ g1 (by simp; omega)]
  simp only [Option.bind_some]
  rw [a2 _ _ 88 (by simpa using g1) (by omega)]
  simp only [Option.bind_some]
  rw [a2 _ _ _ (by simpa using g1) (by omega)]
  simp only [Option.bind_some]
  rw [a1 t2 _ g2 hZ]
  simp only [Option.bind_some]
  rw [a2 _ _ 88 (by simpa using g2) (by omega)]
  simp only [Option.bind_some]
  rw [a2 _ _ _ (by simpa using g2) (by omega)]
  simp only [Option.bind_some, permuteAll, List.map_cons, List.map_nil]
  rw [extractLanesAll_eq (P := P) (by omega) _ (by
    intro s hs
    simp only [List.mem_cons, List.not_mem_nil, or_false] at hs
    rcases hs with rfl | rfl
    · exact hP.permute_len _ (by simpa using g1)
    · exact hP.permute_len _ (by simpa using g2))]
  simp [Bytes.slice]

/-- **C15 is false for large blocks.** With blocks of 2^32 bytes, which `ParallelHash_Initialize` accepts, and
an implementation of parallelism degree 2, there are different messages that collide whatever the
permutation: the offset of the second block is computed modulo 2^32, so that the first block is hashed
twice. -/
theorem C15_large_blocks_collide :
    ∃ X Y : Bytes, X.length = 2 ^ 33 ∧ Y.length = 2 ^ 33 ∧ X ≠ Y ∧
      ∀ (P : SnP), P.Valid → P.width = 200 → ∀ (stack : PhInst) (L : Nat), L ≠ 0 → L + 7 < 2 ^ 64 →
        ∀ (cust : Bytes) (cb : Nat), cb ≤ 8 * cust.length → cb + 7 < 2 ^ 64 →
        ∃ out, ParallelHash P 128 [⟨2, .loop⟩] stack X (2 ^ 36) (2 ^ 32) L cust cb = some (0, out) ∧
          ParallelHash P 128 [⟨2, .loop⟩] stack Y (2 ^ 36) (2 ^ 32) L cust cb = some (0, out) := by
  have hX : (Bytes.zeros (2 ^ 32) ++ (Bytes.zeros (2 ^ 32 - 88) ++ Bytes.zeros 88)).length = 2 ^ 33 := by
    rw [List.length_append, List.length_append, Bytes.length_zeros, Bytes.length_zeros, Bytes.length_zeros]; norm_num
  have hY : (Bytes.zeros (2 ^ 32) ++ (List.replicate (2 ^ 32 - 88) 0xFF ++ Bytes.zeros 88)).length = 2 ^ 33 := by
    rw [List.length_append, List.length_append, Bytes.length_zeros, Bytes.length_zeros,
      List.length_replicate]; norm_num
  refine ⟨_, _, hX, hY, ?_, ?_⟩
  · intro h
    have h1 := List.append_inj_left (List.append_cancel_left h) (by
      rw [Bytes.length_zeros, List.length_replicate])
    rw [Bytes.zeros, List.replicate_inj] at h1
    rcases h1.2 with h2 | h2
    · norm_num at h2
    · exact absurd h2 (by decide)
  · intro P hP hw stack L hL hL64 cust cb hc hc64
    obtain ⟨hr, hr2, -, hr64⟩ := rateBytes_eq (sec := 128) (Or.inl rfl)
    have hrw : rateBytes 128 ≤ P.width := by omega
    obtain ⟨cvs, hcv⟩ := leafBatch_wrap hP hw (Bytes.zeros (2 ^ 32)) (Bytes.length_zeros _) (Bytes.zeros 88)
      (Bytes.length_zeros _)
    have h0 := phInit_eq hP hw (sec := 128) (Or.inl rfl) stack (2 ^ 32) L (by norm_num) ⟨32, rfl⟩ (by norm_num)
      cust cb hc hc64
    obtain ⟨phi, m, hfin⟩ : ∃ phi m, phFinal P 128 (phabs stack.queueNode (Sponge.absd P (rateBytes 128)
        (phPrefix 128 (2 ^ 32) cust cb ++ cvs)) L (2 ^ 32) 0 (2 ^ 36)) =
        (cFinal P (cabsd P (rateBytes 128) L m false)).map fun x => (x.1, ofC phi x.2.1, x.2.2) := by
      obtain ⟨q, h⟩ := phFinal_gen hP hw (sec := 128) (Or.inl rfl) (L := L) (T := 2 ^ 36)
        (treeOk_init (P := P) (r := rateBytes 128) (B := 2 ^ 32) (d := 0x1F#8) (cv := capBytes 128) (by norm_num)
        (phPrefix 128 (2 ^ 32) cust cb ++ cvs) stack.queueNode)
      exact ⟨_, _, h⟩
    obtain ⟨f, hf⟩ := exists_bitLevel P
    obtain ⟨i', o, h4, -, -⟩ := ready_fixed hP hw f hf hr hrw (readyC hP hw (sec := 128) (Or.inl rfl) L m) hL hL64
    rw [h4] at hfin
    have hupd : ∀ X : Bytes, X.length = 2 ^ 33 → leafBatch P (leaf 128 (2 ^ 32)) ⟨2, .loop⟩ X = some cvs →
        phUpdate P 128 [⟨2, .loop⟩] (phabs stack.queueNode (Sponge.absd P (rateBytes 128)
          (phPrefix 128 (2 ^ 32) cust cb)) L (2 ^ 32) 0 0) X (2 ^ 36) =
        some (0, phabs stack.queueNode (Sponge.absd P (rateBytes 128) (phPrefix 128 (2 ^ 32) cust cb ++ cvs)) L
          (2 ^ 32) 0 (2 ^ 36)) := by
      intro X hlen hcv
      have hread : SnP.readBuf X (2 ^ 36 / 8) = some X := by
        unfold SnP.readBuf
        rw [if_pos (by rw [hlen]; norm_num), List.take_of_length_le (by rw [hlen]; norm_num)]
      have hB : (leaf 128 (2 ^ 32)).blockLen = 2 ^ 32 := rfl
      have hst : leafStages P (leaf 128 (2 ^ 32)) [⟨2, .loop⟩] (Sponge.absd P (rateBytes 128)
          (phPrefix 128 (2 ^ 32) cust cb)) X =
          some (0, Sponge.absd P (rateBytes 128) (phPrefix 128 (2 ^ 32) cust cb ++ cvs), [], 2) := by
        have hdrop : X.drop (2 * 2 ^ 32 % 2 ^ 64) = [] := List.drop_eq_nil_of_le (by rw [hlen]; norm_num)
        have hloop : ∀ fin, leafLoop P (leaf 128 (2 ^ 32)) ⟨2, .loop⟩ X.length fin [] = some (0, fin, [], 0) := by
          intro fin
          rw [hlen, show (2 : Nat) ^ 33 = (2 ^ 33 - 1) + 1 by norm_num]
          unfold leafLoop
          rw [hB, if_neg (by norm_num)]
        simp only [leafStages, leafLoop, hB]
        rw [if_pos (by rw [hlen]; norm_num), hcv]
        simp only [Option.bind_eq_bind, Option.bind_some, Sponge.absorb_absd hP hr hrw, ne_eq, not_true_eq_false,
          if_false, hdrop, hloop, Nat.zero_add, Nat.add_zero]
      unfold phUpdate phabs
      simp only [hread, Option.bind_eq_bind, Option.bind_some, updQueue, updBlocks, ne_eq, not_true_eq_false,
        if_false, hst, updRest, List.length_nil, Nat.zero_add, Nat.lt_irrefl]
      norm_num
    have hout : ∀ X : Bytes, X.length = 2 ^ 33 → leafBatch P (leaf 128 (2 ^ 32)) ⟨2, .loop⟩ X = some cvs →
        ParallelHash P 128 [⟨2, .loop⟩] stack X (2 ^ 36) (2 ^ 32) L cust cb = some (0, o) := by
      intro X hlen hcv
      have h1 := hupd X hlen hcv
      unfold ParallelHash
      simp only [hL, if_false, h0, Option.bind_eq_bind, Option.bind_some, ne_eq, not_true_eq_false]
      rw [h1]
      simp only [Option.bind_some, ne_eq, not_true_eq_false, if_false]
      rw [hfin]; rfl
    exact ⟨o, hout _ hX (hcv _ (Bytes.length_zeros _)), hout _ hY (hcv _ List.length_replicate)⟩

/-- **C15 is false for huge blocks.** With blocks of 2^61 bytes and an implementation of parallelism degree 8
(generic loop) `8 * blockLen` is 0 in `size_t`, and even an update with an empty buffer reads out of bounds. -/
theorem C15_huge_blocks_undefined (hP : P.Valid) (hw : P.width = 200) (mem : PhInst) (L : Nat) (cust : Bytes)
    (cb : Nat) (hc : cb ≤ 8 * cust.length) (hc64 : cb + 7 < 2 ^ 64) :
    ∃ i, phInit P 128 mem (2 ^ 61) L cust cb = some (0, i) ∧ phUpdate P 128 [⟨8, .loop⟩] i [] 0 = none := by
  refine ⟨_, phInit_eq hP hw (Or.inl rfl) mem (2 ^ 61) L (by norm_num) ⟨61, rfl⟩ (by norm_num) cust cb hc hc64, ?_⟩
  have hst : ∀ fin B, 168 ≤ B → 8 * B % 2 ^ 64 = 0 → leafStages P (leaf 128 B) [⟨8, .loop⟩] fin [] = none := by
    intro fin B hB h0
    have hb : leafBatch P (leaf 128 B) ⟨8, .loop⟩ [] = none := by
      unfold leafBatch
      simp only [leaf, absorbLoop]
      have h1 : B ≥ rateBytes 128 / 8 * 8 := by norm_num [rateBytes]; exact hB
      have h2 : ∀ l, addLanesAll [] (rateBytes 128 / 8) l 0 (List.replicate 8 P.init) = none := by
        intro l
        simp [addLanesAll, List.replicate_succ, SnP.readBuf, rateBytes]
      simp only [h1, if_true, h2, Option.bind_eq_bind, Option.bind_none]
    have hl : (leaf 128 B).blockLen = B := rfl
    simp only [leafStages, leafLoop, hl, h0]
    rw [if_pos (Nat.zero_le _), hb]
    rfl
  have hst := fun fin => hst fin (2 ^ 61) (by norm_num) (by norm_num)
  have hread : SnP.readBuf [] (0 / 8) = some [] := rfl
  simp only [phUpdate, phabs, hread, updQueue, updBlocks, ne_eq, not_true_eq_false, if_false, Nat.zero_mod,
    Option.bind_eq_bind, Option.bind_some, hst, Option.bind_none]

/-! ## C17: call order -/

/-- Execute a call on the model of ParallelHash. -/
def runPh (P : SnP) (sec : Nat) (cfgs : List Cfg) (i : PhInst) : CCall → Option (Nat × PhInst)
  | .update input n => phUpdate P sec cfgs i input n
  | .final => (phFinal P sec i).map fun x => (x.1, x.2.1)
  | .squeeze n => (phSqueeze P i n).map fun x => (x.1, x.2.1)

def runCallsPh (P : SnP) (sec : Nat) (cfgs : List Cfg) (i : PhInst) : List CCall → Option (List (Nat × PhInst))
  | [] => some []
  | c :: cs => do
    let x ← runPh P sec cfgs i c
    let xs ← runCallsPh P sec cfgs x.2 cs
    some (x :: xs)

def ErrorsFramePh : PhInst → List (Nat × PhInst) → Prop
  | _, [] => True
  | i, x :: xs => (x.1 = 1 → x.2 = i) ∧ ErrorsFramePh x.2 xs

/-- The instances belonging to a stage. -/
inductive PhStage (P : SnP) (sec B L : Nat) : Stage → PhInst → Prop
  | absorbing (m0 M q f n k T) (h : TreeOk P (rateBytes sec) B 0x1F#8 (capBytes sec) m0 M q f n k) :
    PhStage P sec B L .absorbing (phabs q f L B n T)
  | other (s phi) (hs : s = .squeezing ∨ s = .done) (h : InStage P (rateBytes sec) L false s (toC phi)) :
    PhStage P sec B L s phi

theorem cSwitch_toC {phi : PhInst} {c : Nat} {k : CShakeInst} {o : Bytes}
    (h : cSwitch P (toC phi) = some (c, k, o)) : toC (ofC phi k) = k := by
  unfold cSwitch at h
  by_cases hL : phi.fixedOutputLength = 0
  · simp [toC, hL] at h
    rw [← h.2.1]
    simp [toC, ofC, hL]
  · simp only [toC, ne_eq, hL, not_false_eq_true, if_true, Option.bind_eq_bind, Option.bind_eq_some_iff] at h
    obtain ⟨⟨c', k', o'⟩, h1, h2⟩ := h
    have h3 := cSqueeze_toC (phi := phi) h1
    by_cases hc : c' = 0
    · simp only [hc, not_true_eq_false, if_false, Option.some.injEq, Prod.mk.injEq] at h2
      rw [← h2.2.1]
      simp only [toC, ofC] at h3 ⊢
      cases k'
      simp only [CShakeInst.mk.injEq] at h3 ⊢
      simp [h3]
    · simp only [hc, not_false_eq_true, if_true, Option.some.injEq, Prod.mk.injEq] at h2
      rw [← h2.2.1]
      exact h3

theorem disciplinePh_step (hP : P.Valid) (hw : P.width = 200) {sec : Nat} (hsec : sec = 128 ∨ sec = 256)
    {B : Nat} (hB8 : 8 ≤ B) (hB2 : ∃ k, B = 2 ^ k) (cfgs : List Cfg) (hcfg : CfgsFit sec B cfgs) {L : Nat}
    (hL64 : L + 7 < 2 ^ 64) {s : Stage} {i : PhInst} (hi : PhStage P sec B L s i) (c : CCall) (hc : c.ok) :
    ∃ i', runPh P sec cfgs i c = some ((disciplineK L s c).1, i') ∧
      PhStage P sec B L (disciplineK L s c).2 i' ∧ ((disciplineK L s c).1 = 1 → i' = i) := by
  obtain ⟨hr, hr2, -, -⟩ := rateBytes_eq hsec
  have hrw : rateBytes sec ≤ P.width := by omega
  cases hi with
  | absorbing m0 M q f n k T h =>
    cases c with
    | update input bits =>
      by_cases h8 : bits % 8 = 0
      · obtain ⟨q', f', n', k', h1, h2⟩ := phUpdate_eq hP hw hsec (by omega) (pow2_mod8 hB8 hB2) cfgs
          (CfgsFit.ok hsec hcfg) (L := L) (T := T) input bits h8 hc h
        refine ⟨_, by simp only [runPh, h1, disciplineK, h8, if_true]; rfl, ?_, by simp [disciplineK, h8]⟩
        simp only [disciplineK, h8, if_true]
        exact .absorbing _ _ _ _ _ _ _ h2
      · refine ⟨phabs q f L B n T, by simp [runPh, phUpdate, phabs, h8, disciplineK], ?_, fun _ => rfl⟩
        simp only [disciplineK, h8, if_false]
        exact .absorbing _ _ _ _ _ _ _ h
    | final =>
      obtain ⟨q', h1⟩ := phFinal_gen hP hw hsec (L := L) (T := T) h
      obtain ⟨i', o, h2, h3⟩ := ready_final hP hr hrw hL64 (readyC hP hw hsec L _)
      rw [h2] at h1
      refine ⟨_, by simp only [runPh, h1, Option.map_some, disciplineK]; rfl, ?_, by simp [disciplineK]⟩
      have h4 : toC (ofC (phabs q' f L B n T) i') = i' := by
        have hfin := (readyC hP hw hsec L (m0 ++ leafCVs P (rateBytes sec) B 0x1F#8 (capBytes sec)
          (blocksOf M.length B) M ++ (rightEncode (BitVec.ofNat 64 (nBlocks (phabs q f L B n T))) ++
          rightEncode (BitVec.ofNat 64 L)))).fin
        rw [hfin] at h2
        exact cSwitch_toC (phi := { phabs q' f L B n T with finalNode := _, phase := .squeezing }) h2
      refine .other _ _ ?_ ?_
      · simp only [disciplineK]; split <;> simp
      · rw [h4]; exact h3
    | squeeze bits =>
      exact ⟨phabs q f L B n T, by simp [runPh, phSqueeze, phabs, disciplineK], .absorbing _ _ _ _ _ _ _ h,
        fun _ => rfl⟩
  | other _ _ hs h =>
    have hne : s ≠ .lastBits := by rcases hs with rfl | rfl <;> simp
    have hna : i.phase ≠ .absorbing := by
      generalize hk : toC i = k at h
      cases h with
      | absorbing m => simp at hs
      | lastBits => simp at hs
      | squeezing j m d k =>
        have : i.phase = .squeezing := congrArg CShakeInst.phase hk
        simp [this]
      | done j hd =>
        have : i.phase = .final := by rw [← hd, ← hk]; rfl
        simp [this]
    cases c with
    | update input bits =>
      refine ⟨i, by rcases hs with rfl | rfl <;> simp [runPh, phUpdate, hna, disciplineK], ?_, fun _ => rfl⟩
      rcases hs with rfl | rfl
      · exact .other _ _ (Or.inl rfl) h
      · exact .other _ _ (Or.inr rfl) h
    | final =>
      refine ⟨i, by rcases hs with rfl | rfl <;> simp [runPh, phFinal, hna, disciplineK], ?_, fun _ => rfl⟩
      rcases hs with rfl | rfl
      · exact .other _ _ (Or.inl rfl) h
      · exact .other _ _ (Or.inr rfl) h
    | squeeze bits =>
      obtain ⟨i', h1, h2, h3⟩ := discipline_step hP hr hrw hL64 h (.squeeze bits) hc
      simp only [CCall.run, Option.map_eq_some_iff] at h1
      obtain ⟨⟨c', k', o'⟩, h4, h5⟩ := h1
      simp only [Prod.mk.injEq] at h5
      obtain ⟨rfl, rfl⟩ := h5
      have e : disciplineK L s (.squeeze bits) = discipline L s (.squeeze bits) := by
        rcases hs with rfl | rfl <;> rfl
      have h6 := cSqueeze_toC h4
      refine ⟨ofC i k', by simp only [runPh, phSqueeze_eq, h4, Option.map_some, e], ?_, ?_⟩
      · rw [e]
        refine .other _ _ ?_ (by rw [h6]; exact h2)
        rcases hs with rfl | rfl
        · simp only [discipline]; split <;> simp
        · simp [discipline]
      · rw [e]
        intro hcode
        rw [h3 hcode]
        rfl

/-- **C17 (ParallelHash).** After a successful initialisation, for every history of calls: no call is undefined
behaviour, the return codes are exactly those of the call discipline, and a call that returns 1 leaves the
instance unchanged. -/
theorem C17_ParallelHash_discipline (hP : P.Valid) (hw : P.width = 200) {sec : Nat}
    (hsec : sec = 128 ∨ sec = 256) (mem i0 : PhInst) (B L : Nat) (hB64 : B < 2 ^ 64) (hL64 : L + 7 < 2 ^ 64)
    (cfgs : List Cfg) (hcfg : CfgsFit sec B cfgs)
    (cust : Bytes) (cb : Nat) (hc : cb ≤ 8 * cust.length) (hc64 : cb + 7 < 2 ^ 64)
    (h0 : phInit P sec mem B L cust cb = some (0, i0)) (cs : List CCall) (hcs : ∀ c ∈ cs, c.ok) :
    ∃ xs, runCallsPh P sec cfgs i0 cs = some xs ∧ xs.map Prod.fst = codesK L .absorbing cs ∧
      ErrorsFramePh i0 xs := by
  by_cases hB : 8 ≤ B ∧ ∃ k, B = 2 ^ k
  swap
  · rw [phInit_bad sec mem B L hB64 hB] at h0; simp at h0
  rw [phInit_eq hP hw hsec mem B L hB.1 hB.2 hB64 cust cb hc hc64] at h0
  simp only [Option.some.injEq, Prod.mk.injEq, true_and] at h0
  subst h0
  have key : ∀ (cs : List CCall) (s : Stage) (i : PhInst), PhStage P sec B L s i → (∀ c ∈ cs, c.ok) →
      ∃ xs, runCallsPh P sec cfgs i cs = some xs ∧ xs.map Prod.fst = codesK L s cs ∧ ErrorsFramePh i xs := by
    intro cs
    induction cs with
    | nil => intro s i _ _; exact ⟨[], rfl, rfl, trivial⟩
    | cons c cs ih =>
      intro s i hi hok
      obtain ⟨i', h1, h2, h3⟩ := disciplinePh_step hP hw hsec hB.1 hB.2 cfgs hcfg hL64 hi c (hok c (by simp))
      obtain ⟨xs, h4, h5, h6⟩ := ih _ _ h2 (fun c hc => hok c (by simp [hc]))
      exact ⟨((disciplineK L s c).1, i') :: xs, by simp [runCallsPh, h1, h4], by simp [codesK, h5], h3, h6⟩
  exact key cs _ _ (.absorbing _ _ _ _ _ _ _ (treeOk_init (by omega) _ _)) hcs

end ParallelHash
