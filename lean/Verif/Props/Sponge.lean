import Verif.Proofs.SpongeFun
import Verif.Props.Toy

/-!
# Properties C01-C07 of the sponge API

Throughout, `P : SnP` is an arbitrary permutation with its optional fast loop, subject to the documented
contract `P.Valid`, and `P.width * 8 < 2^32` says that the width in bits is an `unsigned int` constant
(1600, 800, 400 or 200 in the code).
-/

namespace Sponge

/-! ## Call histories -/

/-- A call to the incremental sponge API. -/
inductive Call
  | absorb (data : Bytes)
  | lastFewBits (delimitedData : Byte)
  | squeeze (dataByteLen : Nat)

/-- One call: return code, bytes written to the caller's buffer, new instance. -/
def step (P : SnP) (i : SpongeInst) : Call → Option (Nat × Bytes × SpongeInst)
  | .absorb d => (absorb P i d).map fun (c, i) => (c, [], i)
  | .lastFewBits d => (absorbLastFewBits P i d).map fun (c, i) => (c, [], i)
  | .squeeze n => (squeeze P i n).map fun (c, i, o) => (c, o, i)

/-- A sequence of calls: the observations (return code, output) and the final instance. -/
def run (P : SnP) (i : SpongeInst) : List Call → Option (List (Nat × Bytes) × SpongeInst)
  | [] => some ([], i)
  | c :: cs => do
    let (code, out, i) ← step P i c
    let (obs, i) ← run P i cs
    some ((code, out) :: obs, i)

/-- Instances obtained by a successful `SpongeInitialize` followed by any calls. -/
def Reachable (P : SnP) (i : SpongeInst) : Prop :=
  ∃ (mem i0 : SpongeInst) (rate capacity : BitVec 32) (h : List Call) (obs : List (Nat × Bytes)),
    spongeInit P mem rate capacity = (0, i0) ∧ run P i0 h = some (obs, i)

/-- Feed a list of pieces with `SpongeAbsorb`, collecting the return codes. -/
def absorbPieces (P : SnP) (i : SpongeInst) : List Bytes → Option (List Nat × SpongeInst)
  | [] => some ([], i)
  | p :: ps => do
    let (c, i) ← absorb P i p
    let (cs, i) ← absorbPieces P i ps
    some (c :: cs, i)

/-- Squeeze pieces of the given lengths, collecting return codes and concatenating the outputs. -/
def squeezePieces (P : SnP) (i : SpongeInst) : List Nat → Option (List Nat × SpongeInst × Bytes)
  | [] => some ([], i, [])
  | n :: ns => do
    let (c, i, o) ← squeeze P i n
    let (cs, i, os) ← squeezePieces P i ns
    some (c :: cs, i, o ++ os)

variable {P : SnP}

theorem step_WF (hP : P.Valid) {i : SpongeInst} (h : WF P i) (c : Call) :
    ∃ code out i', step P i c = some (code, out, i') ∧ WF P i' ∧ i'.rate = i.rate ∧
      (code = 0 ∨ code = 1) ∧ out.length = (match c with | .squeeze n => n | _ => 0) := by
  cases c with
  | absorb d =>
    cases hs : i.squeezing
    · exact ⟨0, [], _, by rw [step, absorb_eq hP h hs]; rfl, h.absorbed hP hs d, rfl, .inl rfl, rfl⟩
    · exact ⟨1, [], _, by rw [step, absorb_late hs]; rfl, h, rfl, .inr rfl, rfl⟩
  | lastFewBits d =>
    by_cases hd : d = 0
    · exact ⟨1, [], i, by simp [step, absorbLastFewBits, hd], h, rfl, .inr rfl, rfl⟩
    · cases hs : i.squeezing
      · exact ⟨0, [], _, by rw [step, lastFewBits_eq h hP hs d hd]; rfl, h.finished hP d, rfl, .inl rfl,
          rfl⟩
      · exact ⟨1, [], i, by simp [step, absorbLastFewBits, hd, hs], h, rfl, .inr rfl, rfl⟩
  | squeeze n =>
    cases hs : i.squeezing
    · have h1 := lastFewBits_eq h hP hs 0x01 (by decide)
      have h2 := h.finished hP 0x01
      have h3 := squeeze_absorbing hs h1 rfl n
      have h4 := squeeze_eq hP h2 rfl n
      refine ⟨0, _, _, by rw [step, h3, h4]; rfl, h2.squeezed hP rfl n, rfl, .inl rfl, by simp⟩
    · exact ⟨0, _, _, by rw [step, squeeze_eq hP h hs n]; rfl, h.squeezed hP hs n, rfl, .inl rfl, by simp⟩

theorem run_WF (hP : P.Valid) {i : SpongeInst} (h : WF P i) (cs : List Call) :
    ∃ obs i', run P i cs = some (obs, i') ∧ WF P i' ∧ i'.rate = i.rate := by
  induction cs generalizing i with
  | nil => exact ⟨[], i, rfl, h, rfl⟩
  | cons c cs ih =>
    obtain ⟨code, out, i', h1, h2, h3, _⟩ := step_WF hP h c
    obtain ⟨obs, i'', h4, h5, h6⟩ := ih h2
    exact ⟨(code, out) :: obs, i'', by simp [run, h1, h4], h5, by rw [h6, h3]⟩

theorem Reachable.wf (hP : P.Valid) (hw : P.width * 8 < 2 ^ 32) {i : SpongeInst}
    (h : Reachable P i) : WF P i := by
  obtain ⟨mem, i0, rate, cap, cs, obs, h0, h1⟩ := h
  obtain ⟨obs', i', h2, h3, _⟩ := run_WF hP (spongeInit_WF hw h0) cs
  rw [h1] at h2
  simp only [Option.some.injEq, Prod.mk.injEq] at h2
  rw [h2.2]; exact h3

/-! ## C01 -/

/-- **C01.** From any reachable instance that is still absorbing, feeding a message in pieces gives the
same instance as feeding it in one call, and all calls return 0. -/
theorem C01_absorb_chunking (hP : P.Valid) (hw : P.width * 8 < 2 ^ 32) {i : SpongeInst}
    (hr : Reachable P i) (hs : i.squeezing = false) (pieces : List Bytes) :
    ∃ i', absorbPieces P i pieces = some (List.replicate pieces.length 0, i') ∧
      absorb P i pieces.flatten = some (0, i') ∧ i'.squeezing = false := by
  have h := hr.wf hP hw
  clear hr
  induction pieces generalizing i with
  | nil =>
    refine ⟨i, rfl, ?_, hs⟩
    rw [List.flatten_nil, absorb_eq hP h hs]; rfl
  | cons p ps ih =>
    obtain ⟨i', h1, h2, h3⟩ := ih (i := { i with
      state := (absorbAll P (i.rate / 8) (i.state, i.byteIOIndex) p).1,
      byteIOIndex := (absorbAll P (i.rate / 8) (i.state, i.byteIOIndex) p).2 }) hs (h.absorbed hP hs p)
    refine ⟨i', ?_, ?_, h3⟩
    · rw [absorbPieces, absorb_eq hP h hs]
      simp only [Option.bind_eq_bind, Option.bind_some, h1]
      simp [List.replicate_succ]
    · rw [absorb_eq hP (h.absorbed hP hs p) hs] at h2
      rw [absorb_eq hP h hs, List.flatten_cons, absorbAll_append]
      exact h2

/-- **C01**, build configurations: absorbing with the fast loop and without it is the same function on
reachable instances. -/
theorem C01_absorb_fast_irrelevant (hP : P.Valid) (hw : P.width * 8 < 2 ^ 32) {i : SpongeInst}
    (hr : Reachable P i) (m : Bytes) :
    absorb P i m = absorb { P with fast := none } i m := by
  have h := hr.wf hP hw
  have hP' : SnP.Valid { P with fast := none } := ⟨hP.permute_len, by intro F hF; cases hF⟩
  have h' : WF { P with fast := none } i := ⟨h.len, h.pos, h.le, h.idx_le, h.idx_lt⟩
  have hstep : ∀ r, absorbStep { P with fast := none } r = absorbStep P r := fun r => rfl
  cases hs : i.squeezing
  · rw [absorb_eq hP h hs, absorb_eq hP' h' hs]
    simp only [absorbAll, hstep]
  · rw [absorb_late hs, absorb_late hs]

/-! ## C02 -/

/-- **C02.** From any reachable instance, squeezing pieces returns consecutive parts of one stream: the
outputs concatenate to the output of a single call and the final instance is the same. -/
theorem C02_squeeze_chunking (hP : P.Valid) (hw : P.width * 8 < 2 ^ 32) {i : SpongeInst}
    (hr : Reachable P i) (ns : List Nat) (hne : ns ≠ []) :
    ∃ i' out, squeezePieces P i ns = some (List.replicate ns.length 0, i', out) ∧
      squeeze P i ns.sum = some (0, i', out) ∧ out.length = ns.sum := by
  have h := hr.wf hP hw
  clear hr
  -- from a squeezing instance
  have key : ∀ (ns : List Nat) (i : SpongeInst), WF P i → i.squeezing = true →
      ∃ i' out, squeezePieces P i ns = some (List.replicate ns.length 0, i', out) ∧
      squeeze P i ns.sum = some (0, i', out) ∧ out.length = ns.sum := by
    intro ns
    induction ns with
    | nil =>
      intro i h hs
      refine ⟨i, [], rfl, ?_, rfl⟩
      rw [squeeze_eq hP h hs]; rfl
    | cons n ns ih =>
      intro i h hs
      obtain ⟨i', out, h1, h2, h3⟩ := ih _ (h.squeezed hP hs n) hs
      refine ⟨i', (squeezeAll P (i.rate / 8) n (i.state, i.byteIOIndex)).2 ++ out, ?_, ?_, ?_⟩
      · rw [squeezePieces, squeeze_eq hP h hs]
        simp only [Option.bind_eq_bind, Option.bind_some, h1]
        simp only [List.length_cons, List.replicate_succ]
      · rw [squeeze_eq hP (h.squeezed hP hs n) hs] at h2
        rw [squeeze_eq hP h hs, List.sum_cons, squeezeAll_add]
        simp only [Option.some.injEq, Prod.mk.injEq, true_and] at h2 ⊢
        refine ⟨h2.1, ?_⟩
        rw [← h2.2]
      · simp [h3]
  cases hs : i.squeezing
  · have h1 := lastFewBits_eq h hP hs 0x01 (by decide)
    have h2 := h.finished hP 0x01
    obtain ⟨i', out, k1, k2, k3⟩ := key ns _ h2 rfl
    refine ⟨i', out, ?_, ?_, k3⟩
    · cases ns with
      | nil => exact absurd rfl hne
      | cons n ns =>
        rw [squeezePieces] at k1 ⊢
        rw [squeeze_absorbing hs h1 rfl]
        exact k1
    · rw [squeeze_absorbing hs h1 rfl]; exact k2
  · exact key ns i h hs

/-! ## C03 -/

/-- **C03.** Initialise, absorb a message in any pieces, absorb the suffix bits `l` in delimited form `d`,
squeeze in any pieces: the output is the FIPS 202 sponge applied to the message bits followed by `l`.
`fb` is the permutation at bit level. -/
theorem C03_sponge_is_FIPS202 (hP : P.Valid) (hw : P.width * 8 < 2 ^ 32) (fb : Bits → Bits)
    (hf : ∀ s : Bytes, s.length = P.width → fb (Bits.ofBytes s) = Bits.ofBytes (P.permute s))
    {mem i0 : SpongeInst} {rate capacity : BitVec 32}
    (h0 : spongeInit P mem rate capacity = (0, i0))
    (pieces : List Bytes) (l : Bits) (d : Byte) (hd : Bits.DelimitedBy l d) (ns : List Nat) :
    ∃ i1 i2 i3 out,
      absorbPieces P i0 pieces = some (List.replicate pieces.length 0, i1) ∧
      absorbLastFewBits P i1 d = some (0, i2) ∧
      squeezePieces P i2 ns = some (List.replicate ns.length 0, i3, out) ∧
      Bits.ofBytes out =
        Spec.sponge (8 * P.width) fb rate.toNat (Bits.ofBytes pieces.flatten ++ l) (8 * ns.sum) := by
  have hreach : Reachable P i0 := ⟨mem, i0, rate, capacity, [], [], h0, rfl⟩
  have hwf := hreach.wf hP hw
  obtain ⟨hb, rfl⟩ := spongeInit_ok h0
  obtain ⟨hr, hrw, hr8⟩ := ok_params hw hb
  obtain ⟨i1, h1, h2, h3⟩ := C01_absorb_chunking hP hw hreach rfl pieces
  rw [absorb_eq hP hwf rfl] at h2
  simp only [Option.some.injEq, Prod.mk.injEq, true_and] at h2
  subst h2
  have hwf1 := hwf.absorbed hP rfl pieces.flatten
  have hl := lastFewBits_eq hwf1 hP rfl d hd.ne_zero
  simp only [Prod.mk.eta] at hl
  have hwf2 := hwf1.finished hP d
  simp only [Prod.mk.eta] at hwf2
  by_cases hne : ns = []
  · subst hne
    refine ⟨_, _, _, [], h1, hl, rfl, ?_⟩
    have := machine_eq_spec hP fb hf hr hrw pieces.flatten l d hd 0
    rw [hr8] at this
    simpa using this
  · have hre2 : Reachable P _ := ⟨mem, _, rate, capacity,
      [.absorb pieces.flatten, .lastFewBits d], [(0, []), (0, [])], h0, by
        simp only [run, step, absorb_eq hP hwf rfl, Option.map_some, Option.bind_eq_bind,
          Option.bind_some, hl]
        rfl⟩
    obtain ⟨i', out, k1, k2, k3⟩ := C02_squeeze_chunking hP hw hre2 ns hne
    refine ⟨_, _, _, out, h1, hl, k1, ?_⟩
    rw [squeeze_eq hP hwf2 rfl] at k2
    simp only [Option.some.injEq, Prod.mk.injEq, true_and] at k2
    rw [← k2.2]
    have := machine_eq_spec hP fb hf hr hrw pieces.flatten l d hd ns.sum
    rw [hr8] at this
    exact this

/-! ## C04 -/

/-- **C04.** The one-call function agrees with the incremental API: it is rejected exactly when
`SpongeInitialize` or `SpongeAbsorbLastFewBits` rejects, and otherwise gives the same bytes. -/
theorem C04_one_shot_eq_incremental (hP : P.Valid) (hw : P.width * 8 < 2 ^ 32) (mem : SpongeInst)
    (rate capacity : BitVec 32) (input : Bytes) (suffix : Byte) (n : Nat) :
    (∀ i0, spongeInit P mem rate capacity = (0, i0) → suffix ≠ 0 →
      ∃ i1 i2 i3 out, absorb P i0 input = some (0, i1) ∧
        absorbLastFewBits P i1 suffix = some (0, i2) ∧ squeeze P i2 n = some (0, i3, out) ∧
        out.length = n ∧ sponge P rate capacity input suffix n = some (0, out)) ∧
    ((spongeInit P mem rate capacity).1 ≠ 0 ∨ suffix = 0 →
      sponge P rate capacity input suffix n = some (1, [])) := by
  refine ⟨?_, ?_⟩
  · intro i0 h0 hd
    have hwf := spongeInit_WF hw h0
    obtain ⟨hb, rfl⟩ := spongeInit_ok h0
    have hwf1 := hwf.absorbed hP rfl input
    have hwf2 := hwf1.finished hP suffix
    refine ⟨_, _, _, _, absorb_eq hP hwf rfl input, lastFewBits_eq hwf1 hP rfl suffix hd,
      squeeze_eq hP hwf2 rfl n, by simp, ?_⟩
    rw [sponge_eq hP hw hb input suffix hd n]
  · intro h
    unfold sponge
    cases hb : badParams P rate capacity
    · have : suffix = 0 := by
        rcases h with h | h
        · simp [spongeInit, hb] at h
        · exact h
      simp [this]
    · simp

/-! ## C05 -/

/-- **C05**, parameters: initialisation succeeds iff rate and capacity sum to the width *as integers* (no
32-bit wraparound), the rate is positive and a multiple of 8; otherwise it returns 1 and leaves the
memory unchanged. -/
theorem C05_init_iff (hw : P.width * 8 < 2 ^ 32) (mem : SpongeInst) (rate capacity : BitVec 32) :
    ((spongeInit P mem rate capacity).1 = 0 ↔
      rate.toNat + capacity.toNat = P.width * 8 ∧ 0 < rate.toNat ∧ rate.toNat % 8 = 0) ∧
    ((spongeInit P mem rate capacity).1 ≠ 0 → spongeInit P mem rate capacity = (1, mem)) := by
  rw [← badParams_iff rate capacity hw]
  unfold spongeInit
  cases badParams P rate capacity <;> simp

/-- **C05**, call order: in the squeezing phase both absorbing functions return 1 and leave the instance
unchanged, as does `AbsorbLastFewBits(0x00)` in any phase. -/
theorem C05_late_calls (i : SpongeInst) :
    (i.squeezing = true → ∀ m, absorb P i m = some (1, i)) ∧
    (i.squeezing = true → ∀ d, absorbLastFewBits P i d = some (1, i)) ∧
    absorbLastFewBits P i 0 = some (1, i) := by
  refine ⟨fun hs m => absorb_late hs m, fun hs d => ?_, by simp [absorbLastFewBits]⟩
  unfold absorbLastFewBits
  split <;> simp [hs]

/-- **C05**, phases: on reachable instances, absorbing succeeds in the absorbing phase and stays there;
non-zero last bits succeed and start the squeezing phase; and squeezing in the absorbing phase is
`AbsorbLastFewBits(0x01)` followed by squeezing. -/
theorem C05_phases (hP : P.Valid) (hw : P.width * 8 < 2 ^ 32) {i : SpongeInst} (hr : Reachable P i)
    (hs : i.squeezing = false) :
    (∀ m, ∃ i', absorb P i m = some (0, i') ∧ i'.squeezing = false) ∧
    (∀ d, d ≠ 0 → ∃ i', absorbLastFewBits P i d = some (0, i') ∧ i'.squeezing = true) ∧
    (∀ n i', absorbLastFewBits P i 0x01 = some (0, i') → squeeze P i n = squeeze P i' n) := by
  have h := hr.wf hP hw
  refine ⟨fun m => ⟨_, absorb_eq hP h hs m, hs⟩, fun d hd => ⟨_, lastFewBits_eq h hP hs d hd, rfl⟩, ?_⟩
  intro n i' h'
  refine squeeze_absorbing hs h' ?_ n
  rw [lastFewBits_eq h hP hs 0x01 (by decide)] at h'
  simp only [Option.some.injEq, Prod.mk.injEq, true_and] at h'
  rw [← h']

/-! ## C06 -/

/-- **C06.** From a successfully initialised instance, every sequence of calls with arbitrary arguments
runs without any out-of-bounds access and terminates (`run` is not `none`), keeps the index within the
rate and the rate unchanged, and every continuation of it does too. -/
theorem C06_no_out_of_bounds (hP : P.Valid) (hw : P.width * 8 < 2 ^ 32)
    {mem i0 : SpongeInst} {rate capacity : BitVec 32}
    (h0 : spongeInit P mem rate capacity = (0, i0)) (cs : List Call) :
    ∃ obs i, run P i0 cs = some (obs, i) ∧ i.rate = rate.toNat ∧
      i.byteIOIndex ≤ rate.toNat / 8 ∧ (i.squeezing = false → i.byteIOIndex < rate.toNat / 8) ∧
      i.state.length = P.width := by
  obtain ⟨obs, i, h1, h2, h3⟩ := run_WF hP (spongeInit_WF hw h0) cs
  obtain ⟨_, rfl⟩ := spongeInit_ok h0
  simp only at h3
  exact ⟨obs, i, h1, h3, h3 ▸ h2.idx_le, h3 ▸ h2.idx_lt, h2.len⟩

/-- **C06**, output sizes: on a reachable instance a squeeze call writes exactly the requested number of
bytes and the other calls write none. -/
theorem C06_output_length (hP : P.Valid) (hw : P.width * 8 < 2 ^ 32) {i : SpongeInst}
    (hr : Reachable P i) (c : Call) :
    ∃ code out i', step P i c = some (code, out, i') ∧
      out.length = (match c with | .squeeze n => n | _ => 0) := by
  obtain ⟨code, out, i', h1, _, _, _, h2⟩ := step_WF hP (hr.wf hP hw) c
  exact ⟨code, out, i', h1, h2⟩

/-! ## C07 -/

/-- Absorbing a list of blocks: xor into the outer part and permute. -/
def foldBlocks (f : Bytes → Bytes) (s : Bytes) (blks : List Bytes) : Bytes :=
  blks.foldl (fun s b => f (Bytes.xorAt s 0 b)) s

/-- Cut a byte string in pieces of `r` bytes. -/
def chunks (r : Nat) : Nat → Bytes → List Bytes
  | 0, _ => []
  | n + 1, p => p.take r :: chunks r n (p.drop r)

theorem chunks_flatten (r : Nat) : ∀ (n : Nat) (p : Bytes), p.length = n * r →
    (chunks r n p).flatten = p ∧ ∀ b ∈ chunks r n p, b.length = r := by
  intro n
  induction n with
  | zero => intro p hp; simp at hp; subst hp; simp [chunks]
  | succ n ih =>
    intro p hp
    rw [Nat.succ_mul] at hp
    obtain ⟨h1, h2⟩ := ih (p.drop r) (by simp; omega)
    simp only [chunks, List.flatten_cons, h1, List.take_append_drop, List.mem_cons, true_and]
    rintro b (rfl | hb)
    · simp; omega
    · exact h2 b hb

theorem foldBlocks_chunks {r : Nat} (hr : 0 < r) : ∀ (n : Nat) (s p : Bytes), p.length = n * r →
    foldBlocks P.permute s (chunks r n p) = (absorbAll P r (s, 0) p).1 := by
  intro n
  induction n with
  | zero => intro s p hp; simp at hp; subst hp; rfl
  | succ n ih =>
    intro s p hp
    rw [Nat.succ_mul] at hp
    have hl : (p.take r).length = r := by simp; omega
    rw [chunks]
    conv_rhs => rw [← List.take_append_drop r p]
    rw [absorbAll_append, absorbAll_fill r s 0 (p.take r) (by
      intro h0; rw [h0] at hl; simp at hl; omega) (by omega), ← ih _ _ (by simp; omega)]
    rfl

theorem pad101_injective {N N' : Bits} {x : Nat}
    (h : N ++ Spec.pad101 x N.length = N' ++ Spec.pad101 x N'.length) : N = N' := by
  have key : ∀ (j j' : Nat) (A B : Bits),
      A ++ [true] ++ List.replicate j false = B ++ [true] ++ List.replicate j' false → A = B := by
    intro j
    induction j with
    | zero =>
      intro j' A B h
      cases j' with
      | zero => simpa using h
      | succ j' =>
        rw [List.replicate_succ', ← List.append_assoc, List.replicate_zero, List.append_nil] at h
        have := (List.append_inj' h rfl).2
        simp at this
    | succ j ih =>
      intro j' A B h
      cases j' with
      | zero =>
        rw [List.replicate_succ', ← List.append_assoc, List.replicate_zero, List.append_nil] at h
        have := (List.append_inj' h rfl).2
        simp at this
      | succ j' =>
        rw [List.replicate_succ', List.replicate_succ', ← List.append_assoc, ← List.append_assoc] at h
        exact ih j' A B (List.append_inj' h rfl).1
  unfold Spec.pad101 at h
  simp only [← List.append_assoc] at h
  exact key _ _ _ _ (List.append_inj' h rfl).1

/-- **C07.** For every rate of `r` bytes there is one way of turning (message, suffix byte) into a sequence
of `r`-byte blocks such that: for *every* permutation, absorbing the message and the suffix with the API
is xoring-and-permuting these blocks (so this is what the code absorbs); and the sequence determines the
message and the suffix. -/
theorem C07_padding_injective (r : Nat) (hr : 0 < r) :
    ∃ pad : Bytes → Byte → List Bytes,
      (∀ m d b, b ∈ pad m d → b.length = r) ∧
      (∀ (P : SnP), P.Valid → P.width * 8 < 2 ^ 32 → ∀ mem i0 rate capacity m d,
        spongeInit P mem rate capacity = (0, i0) → rate.toNat = 8 * r → d ≠ 0 →
        ∃ i1 i2, absorb P i0 m = some (0, i1) ∧ absorbLastFewBits P i1 d = some (0, i2) ∧
          i2.state = foldBlocks P.permute (Bytes.zeros P.width) (pad m d)) ∧
      (∀ m d m' d', d ≠ 0 → d' ≠ 0 → pad m d = pad m' d' → m = m' ∧ d = d') := by
  have hlen : ∀ (m : Bytes) (d : Byte), ∃ k, (m ++ padTail r (m.length % r) d).length = k * r := by
    intro m d
    obtain ⟨k, hk, _⟩ := length_padTail r (m.length % r) hr (Nat.mod_lt _ hr) d
    refine ⟨m.length / r + k, ?_⟩
    have := Nat.div_add_mod m.length r
    rw [List.length_append, Nat.add_mul, ← hk, Nat.mul_comm (m.length / r)]
    omega
  let pad : Bytes → Byte → List Bytes := fun m d =>
    chunks r ((m ++ padTail r (m.length % r) d).length / r) (m ++ padTail r (m.length % r) d)
  have hdiv : ∀ (m : Bytes) (d : Byte), (m ++ padTail r (m.length % r) d).length =
      (m ++ padTail r (m.length % r) d).length / r * r := by
    intro m d
    obtain ⟨k, hk⟩ := hlen m d
    rw [hk, Nat.mul_div_cancel _ hr]
  refine ⟨pad, ?_, ?_, ?_⟩
  · intro m d b hb
    exact (chunks_flatten r _ _ (hdiv m d)).2 b hb
  · intro P hP hw mem i0 rate capacity m d h0 hrate hd
    have hwf := spongeInit_WF hw h0
    obtain ⟨hb, rfl⟩ := spongeInit_ok h0
    have hwf1 := hwf.absorbed hP rfl m
    refine ⟨_, _, absorb_eq hP hwf rfl m, lastFewBits_eq hwf1 hP rfl d hd, ?_⟩
    have hr8 : rate.toNat / 8 = r := by omega
    have hidx : (absorbAll P r (P.init, 0) m).2 = m.length % r := by
      rw [absorbAll_idx_eq r hr _ _ (by simpa)]; simp
    simp only [hr8, Prod.mk.eta]
    have hfin := finish_eq (P := P) r hr (absorbAll P r (P.init, 0) m)
      (absorbAll_idx r _ m (by simpa)) d
    rw [hidx] at hfin
    rw [hfin.1, ← absorbAll_append]
    exact (foldBlocks_chunks hr _ _ _ (hdiv m d)).symm
  · intro m d m' d' hd hd' h
    have h1 := (chunks_flatten r _ _ (hdiv m d)).1
    have h2 := (chunks_flatten r _ _ (hdiv m' d')).1
    have h3 : m ++ padTail r (m.length % r) d = m' ++ padTail r (m'.length % r) d' := by
      rw [← h1, ← h2]; exact congrArg List.flatten h
    obtain ⟨l, hl⟩ := Bits.exists_delimitedBy d hd
    obtain ⟨l', hl'⟩ := Bits.exists_delimitedBy d' hd'
    have h4 := congrArg Bits.ofBytes h3
    rw [pad_eq r hr m l d hl, pad_eq r hr m' l' d' hl'] at h4
    have h5 := pad101_injective h4
    have hlm : m.length = m'.length := by
      have h6 := congrArg List.length h5
      simp only [List.length_append, Bits.length_ofBytes] at h6
      have := hl.1
      have := hl'.1
      omega
    obtain ⟨h6, h7⟩ := List.append_inj h5 (by simp [hlm])
    refine ⟨Bits.ofBytes_injective h6, ?_⟩
    subst h7
    apply BitVec.eq_of_toNat_eq
    rw [hl.2, hl'.2]

/-! ## The hypotheses are met by non-trivial cases -/

section Examples

/-- arbitrary previous content of the memory -/
private def mem : SpongeInst := ⟨[], 7, 99, true⟩

private def inst18 : SpongeInst := ⟨Bytes.zeros 25, 144, 0, false⟩

example : spongeInit Toy.snp mem 144 56 = (0, inst18) := by decide
/-- the wrapped sum 144 + (2^32 + 56 - …) is not accepted -/
example : (spongeInit Toy.snp mem 0xFFFFFFF8#32 208#32).1 = 1 := by decide

/-- a reachable instance in the absorbing phase with a non-empty queue, after three calls crossing blocks -/
example : ∃ i, Reachable Toy.snp i ∧ i.squeezing = false ∧ i.byteIOIndex = 5 :=
  ⟨((run Toy.snp inst18 [.absorb (Bytes.zeros 17), .lastFewBits 0, .absorb (List.replicate 42 0xA5)]).getD ([], mem)).2,
    ⟨mem, inst18, 144, 56, [.absorb (Bytes.zeros 17), .lastFewBits 0, .absorb (List.replicate 42 0xA5)],
      [(0, []), (1, []), (0, [])], by decide, by decide +kernel⟩, by decide +kernel, by decide +kernel⟩

/-- a reachable instance in the squeezing phase -/
example : ∃ i, Reachable Toy.snp i ∧ i.squeezing = true ∧ i.byteIOIndex = 18 :=
  ⟨((run Toy.snp inst18 [.absorb (Bytes.zeros 17), .lastFewBits 0x86, .squeeze 54]).getD ([], mem)).2,
    ⟨mem, inst18, 144, 56, [.absorb (Bytes.zeros 17), .lastFewBits 0x86, .squeeze 54],
      ((run Toy.snp inst18 [.absorb (Bytes.zeros 17), .lastFewBits 0x86, .squeeze 54]).getD ([], mem)).1,
      by decide, by decide +kernel⟩, by decide +kernel, by decide +kernel⟩

/-- SHA-3's suffix 01 in delimited form is 0x06, SHAKE's 1111 is 0x1F, the empty string is 0x01 -/
example : Bits.DelimitedBy [false, true] 0x06 ∧ Bits.DelimitedBy [true, true, true, true] 0x1F ∧
    Bits.DelimitedBy [] 0x01 ∧ Bits.DelimitedBy [true, false, true, false, false, true, true] 0xE5 := by
  decide

/-- a bit-level permutation for the toy SnP (C03's hypothesis on `fb`) -/
example : ∃ fb : Bits → Bits, ∀ s : Bytes, s.length = Toy.snp.width →
    fb (Bits.ofBytes s) = Bits.ofBytes (Toy.snp.permute s) := by
  classical
  exact ⟨fun b => if h : ∃ s : Bytes, Bits.ofBytes s = b then Bits.ofBytes (Toy.snp.permute h.choose) else b,
    fun s _ => by
      have hex : ∃ s' : Bytes, Bits.ofBytes s' = Bits.ofBytes s := ⟨s, rfl⟩
      simp only [hex, dif_pos]
      rw [Bits.ofBytes_injective hex.choose_spec]⟩

end Examples

end Sponge
