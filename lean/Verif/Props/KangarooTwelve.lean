import Verif.Proofs.KangarooTwelve
import Verif.Props.SP800185

/-!
# Properties C18, C19: KangarooTwelve

`P` is any SnP of width 1600 bits obeying its contract (Keccak-p[1600, 12] in the code), `f` the bit-level
function it computes, and `cfgs sec` the parallel implementations compiled in for the security level `sec`.
-/

namespace KT
open SP800185 (rateBytes rateBytes_eq)
open PlSnP Spec

variable {P : SnP}

/-- Successive `KangarooTwelve_Update` calls. -/
def ktUpdates (P : SnP) (cfgs : Nat → List Cfg) (i : KtInst) : List Bytes → Option (List Nat × KtInst)
  | [] => some ([], i)
  | u :: us => do
    let (c, i) ← ktUpdate P cfgs i u
    let (cs, i) ← ktUpdates P cfgs i us
    some (c :: cs, i)

/-- Successive `KangarooTwelve_Squeeze` calls. -/
def ktSqueezes (P : SnP) (i : KtInst) : List Nat → Option (List Nat × KtInst × Bytes)
  | [] => some ([], i, [])
  | n :: ns => do
    let (c, i, o) ← ktSqueeze P i n
    let (cs, i, os) ← ktSqueezes P i ns
    some (c :: cs, i, o ++ os)

/-- What is assumed of a parallel implementation: its degree is not absurd, and if it has a dedicated
`KT128ProcessLeaves`/`KT256ProcessLeaves`, this computes the chaining values of RFC 9861. -/
def CfgFits (f : Bits → Bits) (sec : Nat) (cfg : Cfg) : Prop :=
  2 ≤ cfg.degree ∧ cfg.degree ≤ 2 ^ 18 ∧
  ∀ F, cfg.kind = .processLeaves F → ∀ x : Bytes, x.length = cfg.degree * 8192 →
    Bits.ofBytes (F x) = (List.range cfg.degree).flatMap fun i =>
      TurboSHAKE f (2 * sec) (ktChunk (Bits.ofBytes x) i) [true, true, false] (2 * sec)

theorem delim_leaf : Bits.DelimitedBy [true, true, false] 0x0B#8 := ⟨by decide, by decide⟩
theorem delim_single : Bits.DelimitedBy [true, true] 0x07#8 := ⟨by decide, by decide⟩
theorem delim_final : Bits.DelimitedBy [false, true] 0x06#8 := ⟨by decide, by decide⟩

theorem ktFinal_of {cfgs : Nat → List Cfg} {i1 i2 i3 : KtInst} {C : Bytes} (hp : i1.phase = .absorbing)
    (h1 : (if C.length ≠ 0 then ktUpdate P cfgs i1 C else some (0, i1)) = some (0, i2))
    (h2 : ktUpdate P cfgs i2 (rightEncode (BitVec.ofNat 64 C.length)) = some (0, i3)) :
    ktFinal P cfgs i1 C = finNode P i3 := by
  unfold ktFinal
  rw [if_neg (by simp [hp])]
  by_cases hC : C.length = 0
  · rw [if_neg (by simpa using hC)] at h1
    simp only [Option.some.injEq, Prod.mk.injEq, true_and] at h1
    subst h1
    rw [if_neg (by simpa using hC)]
    simp [h2]
  · rw [if_pos hC] at h1
    rw [if_pos hC]
    simp [h1, h2]

section
variable (hP : P.Valid) (hw : P.width = 200) (f : Bits → Bits)
  (hf : ∀ s : Bytes, s.length = 200 → f (Bits.ofBytes s) = Bits.ofBytes (P.permute s))
  {sec : Nat} (hsec : sec = 128 ∨ sec = 256)
include hP hw hf hsec

theorem out_turbo (m : Bytes) (d : Byte) (l : Bits) (hd : Bits.DelimitedBy l d) (n : Nat) :
    Bits.ofBytes (Sponge.out P (rateBytes sec) m d n) = TurboSHAKE f (2 * sec) (Bits.ofBytes m) l (8 * n) := by
  obtain ⟨hr, hr2, hr8, -⟩ := rateBytes_eq hsec
  rw [Sponge.out_spec hP f (by rw [hw]; exact hf) hr (by omega) _ _ d hd, hw, TurboSHAKE]
  rcases hsec with rfl | rfl <;> rfl

theorem leafCVs_spec (n : Nat) (M : Bytes) :
    Bits.ofBytes (leafCVs P (rateBytes sec) 8192 0x0B#8 (capBytes sec) n M) =
      (List.range n).flatMap fun i =>
        TurboSHAKE f (2 * sec) (ktChunk (Bits.ofBytes M) i) [true, true, false] (2 * sec) := by
  obtain ⟨-, -, -, e3, -⟩ := capBytes_eq hsec
  rw [leafCVs_eq_range]
  induction List.range n with
  | nil => simp
  | cons i l ih =>
    rw [List.flatMap_cons, List.flatMap_cons, Bits.ofBytes_append, ih]
    congr 1
    rw [out_turbo hP hw f hf hsec _ _ _ delim_leaf, e3, ktChunk, ← Bits.take_ofBytes, ← Bits.drop_ofBytes,
      show 8 * (i * 8192) = i * 65536 by omega]

theorem cfg_ok {cfg : Cfg} (h : CfgFits f sec cfg) : CfgOk P (leaf sec) cfg := by
  obtain ⟨h1, h2, h3⟩ := h
  obtain ⟨-, e1, e2, -, -⟩ := capBytes_eq hsec
  obtain ⟨hr, hr2, hr8, -⟩ := rateBytes_eq hsec
  refine ⟨h1, ?_, ?_⟩
  · rw [e1]
    show (cfg.degree - 1) * 8192 + rateBytes sec < 2 ^ 32
    omega
  · intro F hF x hx
    rw [e1, e2]
    apply Bits.ofBytes_injective
    rw [h3 F hF x hx]
    exact (leafCVs_spec hP hw f hf hsec _ _).symm

/-- The message of the final node is that of RFC 9861. -/
theorem node_spec (S : Bytes) (hlen : S.length < 2 ^ 76) (m : Bytes) (d : Byte) (n : Nat)
    (h : (S.length ≤ 8192 ∧ m = S ∧ d = 0x07#8) ∨
       (8192 < S.length ∧ d = 0x06#8 ∧ m = S.take 8192 ++ 0x03#8 :: Bytes.zeros 7 ++
          leafCVs P (rateBytes sec) 8192 0x0B#8 (capBytes sec)
            (ParallelHash.blocksOf (S.length - 8192) 8192) (S.drop 8192) ++
          (rightEncode (BitVec.ofNat 64 (ParallelHash.blocksOf (S.length - 8192) 8192)) ++ [0xFF, 0xFF]))) :
    Bits.ofBytes (Sponge.out P (rateBytes sec) m d n) =
      if ktChunks (Bits.ofBytes S) ≤ 1 then TurboSHAKE f (2 * sec) (Bits.ofBytes S) [true, true] (8 * n)
      else TurboSHAKE f (2 * sec) (ktFinalNode f sec (Bits.ofBytes S)) [false, true] (8 * n) := by
  have hch : ktChunks (Bits.ofBytes S) = (S.length + 8191) / 8192 := by
    unfold ktChunks
    rw [Bits.length_ofBytes]; omega
  rcases h with ⟨h1, rfl, rfl⟩ | ⟨h1, rfl, hm⟩
  · rw [out_turbo hP hw f hf hsec _ _ _ delim_single, if_pos (by rw [hch]; omega)]
  · rw [out_turbo hP hw f hf hsec _ _ _ delim_final, if_neg (by rw [hch]; omega)]
    congr 1
    have hb : ParallelHash.blocksOf (S.length - 8192) 8192 = ktChunks (Bits.ofBytes S) - 1 := by
      rw [hch]; unfold ParallelHash.blocksOf; omega
    have hb64 : ktChunks (Bits.ofBytes S) - 1 < 2 ^ 64 := by rw [hch]; omega
    have e1 : ∀ i, ktChunk (Bits.ofBytes (S.drop 8192)) i = ktChunk (Bits.ofBytes S) (i + 1) := by
      intro i
      unfold ktChunk
      rw [← Bits.drop_ofBytes, List.drop_drop]
      rw [show 8 * 8192 + i * 65536 = (i + 1) * 65536 by omega]
    have e2 : Bits.ofBytes (S.take 8192) = ktChunk (Bits.ofBytes S) 0 := by
      rw [← Bits.take_ofBytes]; unfold ktChunk; rw [Nat.zero_mul, List.drop_zero]
    have e3 : Bits.ofBytes (0x03#8 :: Bytes.zeros 7) = [true, true] ++ List.replicate 62 false := by decide
    have e4 : Bits.ofBytes [0xFF, 0xFF] = List.replicate 16 true := by decide
    rw [hm, hb, Bits.ofBytes_append, Bits.ofBytes_append, Bits.ofBytes_append, Bits.ofBytes_append, e2, e3, e4,
      leafCVs_spec hP hw f hf hsec, rightEncode_nat hb64, ktFinalNode]
    simp only [e1, List.append_assoc]

variable (cfgs : Nat → List Cfg) (hcfg : ∀ cfg ∈ cfgs sec, CfgFits f sec cfg)
include hcfg

theorem ktUpdates_eq {L : Nat} (us : List Bytes) : ∀ {S : Bytes} {kt : KtInst}, KtOk P sec L S kt →
    S.length + us.flatten.length < 2 ^ 76 →
    ∃ kt', ktUpdates P cfgs kt us = some (List.replicate us.length 0, kt') ∧ KtOk P sec L (S ++ us.flatten) kt' := by
  induction us with
  | nil => intro S kt h _; exact ⟨kt, rfl, by simpa using h⟩
  | cons u us ih =>
    intro S kt h hlen
    simp only [List.flatten_cons, List.length_append] at hlen
    obtain ⟨k1, h1, h2⟩ := ktUpdate_eq hP hw hsec cfgs (fun c hc => cfg_ok hP hw f hf hsec (hcfg c hc)) h u
      (by omega)
    obtain ⟨k2, h3, h4⟩ := ih h2 (by simp only [List.length_append]; omega)
    refine ⟨k2, ?_, by simpa using h4⟩
    simp only [ktUpdates, h1, h3, Option.bind_eq_bind, Option.bind_some, List.length_cons, List.replicate_succ]

omit hf hcfg cfgs hw f in
theorem finSwitch_fixed {q : SpongeInst} {m : Bytes} {L bn n : Nat} (hw : P.width = 200) {d : Byte} (hd : d ≠ 0)
    (hL : L ≠ 0) :
    ∃ i, finSwitch P (ktabs q (Sponge.absd P (rateBytes sec) m) L bn n sec) d =
      some (0, i, Sponge.out P (rateBytes sec) m d L) ∧ i.phase = .final := by
  obtain ⟨hr, hr2, -, -⟩ := rateBytes_eq hsec
  have hrw : rateBytes sec ≤ P.width := by omega
  refine ⟨{ ktabs q (Sponge.sqd P (rateBytes sec) m d (0 + L)) L bn n sec with phase := .final }, ?_, rfl⟩
  unfold finSwitch
  simp only [ktabs, TurboSHAKE.absorbDomainSeparationByte, Sponge.lastFewBits_absd hP hr hrw _ _ hd,
    Option.bind_eq_bind, Option.bind_some, ne_eq, not_true_eq_false, if_false, hL, not_false_eq_true, if_true,
    TurboSHAKE.squeeze, Sponge.squeeze_sqd hP hr hrw, List.drop_zero, Nat.zero_add]

/-- A squeezing instance. -/
def ktsq (P : SnP) (sec : Nat) (q : SpongeInst) (m : Bytes) (d : Byte) (k bn n : Nat) : KtInst :=
  { ktabs q (Sponge.sqd P (rateBytes sec) m d k) 0 bn n sec with phase := .squeezing }

omit hf hcfg cfgs hw f in
theorem finSwitch_xof {q : SpongeInst} {m : Bytes} {bn n : Nat} (hw : P.width = 200) {d : Byte} (hd : d ≠ 0) :
    finSwitch P (ktabs q (Sponge.absd P (rateBytes sec) m) 0 bn n sec) d =
      some (0, ktsq P sec q m d 0 bn n, []) := by
  obtain ⟨hr, hr2, -, -⟩ := rateBytes_eq hsec
  have hrw : rateBytes sec ≤ P.width := by omega
  unfold finSwitch ktsq
  simp only [ktabs, TurboSHAKE.absorbDomainSeparationByte, Sponge.lastFewBits_absd hP hr hrw _ _ hd,
    Option.bind_eq_bind, Option.bind_some, ne_eq, not_true_eq_false, if_false]

omit hf hcfg cfgs hw f in
theorem ktSqueeze_ktsq (hw : P.width = 200) (q m d k bn n l) :
    ktSqueeze P (ktsq P sec q m d k bn n) l =
      some (0, ktsq P sec q m d (k + l) bn n, (Sponge.out P (rateBytes sec) m d (k + l)).drop k) := by
  obtain ⟨hr, hr2, -, -⟩ := rateBytes_eq hsec
  have hrw : rateBytes sec ≤ P.width := by omega
  unfold ktSqueeze ktsq
  simp only [ktabs, ne_eq, not_true_eq_false, if_false, TurboSHAKE.squeeze, Sponge.squeeze_sqd hP hr hrw,
    Option.bind_eq_bind, Option.bind_some]

omit hf hcfg cfgs hw f in
theorem ktSqueezes_ktsq (hw : P.width = 200) (q m d bn n) (ls : List Nat) : ∀ k,
    ktSqueezes P (ktsq P sec q m d k bn n) ls =
      some (List.replicate ls.length 0, ktsq P sec q m d (k + ls.sum) bn n,
        (Sponge.out P (rateBytes sec) m d (k + ls.sum)).drop k) := by
  induction ls with
  | nil => intro k; simp [ktSqueezes, List.drop_eq_nil_of_le]
  | cons l ls ih =>
    intro k
    simp only [ktSqueezes, ktSqueeze_ktsq hP hsec hw, ih, Option.bind_eq_bind, Option.bind_some, List.length_cons,
      List.replicate_succ, List.sum_cons, Nat.add_assoc]
    congr 3
    rw [← Sponge.out_take (k := k + l) (n := k + (l + ls.sum)) _ _ _ (by omega), List.drop_take]
    have e : k + l - k = l := by omega
    rw [e, ← List.drop_drop, List.take_append_drop]

/-- Absorbing everything, up to the final node. -/
theorem kt_ready (mem : KtInst) (L : Nat) (us : List Bytes) (C : Bytes) (hC : C.length < 2 ^ 64)
    (hlen : us.flatten.length < 2 ^ 75) :
    ∃ i0 i1 m d q bn n, d ≠ 0 ∧ ktInit P mem sec L = (0, i0) ∧
      ktUpdates P cfgs i0 us = some (List.replicate us.length 0, i1) ∧
      ktFinal P cfgs i1 C = finSwitch P (ktabs q (Sponge.absd P (rateBytes sec) m) L bn n sec) d ∧
      ∀ k, Bits.ofBytes (Sponge.out P (rateBytes sec) m d k) =
        Spec.KangarooTwelve f sec (Bits.ofBytes us.flatten) (Bits.ofBytes C) (8 * k) := by
  have hok := fun c hc => cfg_ok hP hw f hf hsec (hcfg c hc)
  have hinit : ktInit P mem sec L = (0, ktabs mem.queueNode (Sponge.absd P (rateBytes sec) []) L 0 ([] : Bytes).length sec) := by
    unfold ktInit
    rw [if_neg (by rcases hsec with rfl | rfl <;> decide)]
    have : ((sec : Int)).toNat = sec := by simp
    rw [this, nodeInit_eq hw hsec]
    rfl
  obtain ⟨i1, h1, h2⟩ := ktUpdates_eq hP hw f hf hsec cfgs hcfg (L := L) us
    (KtOk.first mem.queueNode (S := []) (by simp)) (by simp only [List.length_nil]; omega)
  rw [List.nil_append] at h2
  have hph : ∀ {S : Bytes} {kt : KtInst}, KtOk P sec L S kt → kt.phase = .absorbing := by
    intro S kt h; cases h <;> rfl
  have henc := length_rightEncode (BitVec.ofNat 64 C.length)
  have henc' := countBytes_le (BitVec.ofNat 64 C.length)
  obtain ⟨i2, h3, h4⟩ : ∃ i2, (if C.length ≠ 0 then ktUpdate P cfgs i1 C else some (0, i1)) = some (0, i2) ∧
      KtOk P sec L (us.flatten ++ C) i2 := by
    by_cases hC0 : C.length = 0
    · refine ⟨i1, by simp [hC0], ?_⟩
      rw [List.eq_nil_of_length_eq_zero hC0, List.append_nil]; exact h2
    · rw [if_pos hC0]
      exact ktUpdate_eq hP hw hsec cfgs hok h2 C (by omega)
  obtain ⟨i3, h5, h6⟩ := ktUpdate_eq hP hw hsec cfgs hok h4 (rightEncode (BitVec.ofNat 64 C.length))
    (by simp only [List.length_append]; omega)
  have hS : (us.flatten ++ C ++ rightEncode (BitVec.ofNat 64 C.length)).length < 2 ^ 76 := by
    simp only [List.length_append]; omega
  obtain ⟨m, d, q, bn, n, h7, h8, h9⟩ := finNode_eq hP hw hsec h6 hS
  refine ⟨_, i1, m, d, q, bn, n, h7, hinit, h1, ?_, ?_⟩
  · exact (ktFinal_of (hph h2) h3 h5).trans h8
  · intro k
    rw [node_spec hP hw f hf hsec _ hS m d k h9]
    have e : Bits.ofBytes (us.flatten ++ C ++ rightEncode (BitVec.ofNat 64 C.length)) =
        ktString (Bits.ofBytes us.flatten) (Bits.ofBytes C) := by
      rw [Bits.ofBytes_append, Bits.ofBytes_append, rightEncode_nat hC, ktString, Bits.length_ofBytes,
        Nat.mul_div_cancel_left _ (by omega)]
    rw [e]
    rfl

/-- **C18.** KT128/KT256 with a fixed output length: for every message in any partition into updates, every
customisation string and every set of parallel implementations compiled in, all calls succeed and the output is
that of RFC 9861. -/
theorem C18_KangarooTwelve (mem : KtInst) (L : Nat) (hL : L ≠ 0) (us : List Bytes) (C : Bytes)
    (hC : C.length < 2 ^ 64) (hlen : us.flatten.length < 2 ^ 75) :
    ∃ i0 i1 i2 out, ktInit P mem sec L = (0, i0) ∧
      ktUpdates P cfgs i0 us = some (List.replicate us.length 0, i1) ∧
      ktFinal P cfgs i1 C = some (0, i2, out) ∧
      Bits.ofBytes out = Spec.KangarooTwelve f sec (Bits.ofBytes us.flatten) (Bits.ofBytes C) (8 * L) := by
  obtain ⟨i0, i1, m, d, q, bn, n, hd, h0, h1, h2, h3⟩ := kt_ready hP hw f hf hsec cfgs hcfg mem L us C hC hlen
  obtain ⟨i2, h4, -⟩ := finSwitch_fixed (sec := sec) (q := q) (m := m) (bn := bn) (n := n) hP hsec hw hd hL
  exact ⟨i0, i1, i2, _, h0, h1, h2.trans h4, h3 L⟩

/-- **C18.** The extendable-output form: any sequence of squeezes gives the prefix of the RFC 9861 output. -/
theorem C18_KangarooTwelve_xof (mem : KtInst) (us : List Bytes) (C : Bytes)
    (hC : C.length < 2 ^ 64) (hlen : us.flatten.length < 2 ^ 75) (ns : List Nat) :
    ∃ i0 i1 i2 i3 out, ktInit P mem sec 0 = (0, i0) ∧
      ktUpdates P cfgs i0 us = some (List.replicate us.length 0, i1) ∧
      ktFinal P cfgs i1 C = some (0, i2, []) ∧
      ktSqueezes P i2 ns = some (List.replicate ns.length 0, i3, out) ∧
      Bits.ofBytes out = Spec.KangarooTwelve f sec (Bits.ofBytes us.flatten) (Bits.ofBytes C) (8 * ns.sum) := by
  obtain ⟨i0, i1, m, d, q, bn, n, hd, h0, h1, h2, h3⟩ := kt_ready hP hw f hf hsec cfgs hcfg mem 0 us C hC hlen
  have h4 := finSwitch_xof (sec := sec) (q := q) (m := m) (bn := bn) (n := n) hP hsec hw hd
  have h5 := ktSqueezes_ktsq (sec := sec) hP hsec hw q m d bn n ns 0
  refine ⟨i0, i1, _, _, _, h0, h1, h2.trans h4, h5, ?_⟩
  rw [Nat.zero_add, List.drop_zero]
  exact h3 _

/-- **C18.** The one-call functions `KT128` and `KT256`. -/
theorem C18_KT_one_call (stack : KtInst) (M C : Bytes) (hM : M.length < 2 ^ 64) (hC : C.length < 2 ^ 64)
    (L : Nat) (hL : L ≠ 0) :
    ∃ out, kangarooTwelve P cfgs stack sec M L C = some (0, out) ∧
      Bits.ofBytes out = Spec.KangarooTwelve f sec (Bits.ofBytes M) (Bits.ofBytes C) (8 * L) := by
  obtain ⟨i0, i1, i2, out, h0, h1, h2, h3⟩ := C18_KangarooTwelve hP hw f hf hsec cfgs hcfg stack L hL [M] C hC
    (by simp; omega)
  simp only [ktUpdates, Option.bind_eq_bind, Option.bind_eq_some_iff, List.length_cons,
    List.length_nil, List.replicate_succ, List.replicate_zero, Option.some.injEq, Prod.mk.injEq,
    List.cons.injEq] at h1
  obtain ⟨⟨c, i⟩, h4, ⟨cs, i'⟩, h5, ⟨hc, -⟩, hi⟩ := h1
  simp only [Prod.mk.injEq] at h5 hc hi
  obtain ⟨-, rfl⟩ := h5
  subst hc hi
  refine ⟨out, ?_, by simpa using h3⟩
  simp only [kangarooTwelve, hL, if_false, h0, ne_eq, not_true_eq_false, h4, h2, Option.bind_eq_bind,
    Option.bind_some]

end

/-- **C18.** Any other security level, and a zero output length for the one-call function, are refused. -/
theorem C18_refused (mem : KtInst) (cfgs : Nat → List Cfg) (level : Int) (M C : Bytes) (L : Nat) :
    (level ≠ 128 → level ≠ 256 → ktInit P mem level L = (1, mem)) ∧
    (kangarooTwelve P cfgs mem level M 0 C = some (1, [])) ∧
    (level ≠ 128 → level ≠ 256 → kangarooTwelve P cfgs mem level M L C = some (1, [])) := by
  have h : level ≠ 128 → level ≠ 256 → ktInit P mem level L = (1, mem) := by
    intro h1 h2; simp [ktInit, h1, h2]
  refine ⟨h, by simp [kangarooTwelve], fun h1 h2 => ?_⟩
  by_cases hL : L = 0
  · simp [kangarooTwelve, hL]
  · simp [kangarooTwelve, hL, h h1 h2]

-- hypotheses met: three updates across the first chunk and a leaf, all kinds of parallel code
example (mem : KtInst) : ∃ f : Bits → Bits, ∃ i0 i1 i2 out, ktInit SP800185.toy1600 mem (128 : Nat) 32 = (0, i0) ∧
    ktUpdates SP800185.toy1600 (fun _ => [⟨4, .fastLoop⟩, ⟨2, .loop⟩]) i0
      [Bytes.zeros 5, List.replicate 20000 0x61, []] = some ([0, 0, 0], i1) ∧
    ktFinal SP800185.toy1600 (fun _ => [⟨4, .fastLoop⟩, ⟨2, .loop⟩]) i1 [1, 2, 3] = some (0, i2, out) ∧
    Bits.ofBytes out = Spec.KangarooTwelve f 128
      (Bits.ofBytes [Bytes.zeros 5, List.replicate 20000 0x61, []].flatten) (Bits.ofBytes [1, 2, 3]) (8 * 32) := by
  obtain ⟨f, hf⟩ := SP800185.exists_bitLevel SP800185.toy1600
  refine ⟨f, ?_⟩
  exact C18_KangarooTwelve SP800185.toy1600_valid rfl f hf (Or.inl rfl) _
    (by
      intro cfg h
      simp only [List.mem_cons, List.not_mem_nil, or_false] at h
      rcases h with rfl | rfl <;> exact ⟨by decide, by decide, by simp⟩)
    mem 32 (by decide) [Bytes.zeros 5, List.replicate 20000 0x61, []] [1, 2, 3] (by decide)
    (by simp only [List.flatten_cons, List.flatten_nil, List.length_append, Bytes.length_zeros,
          List.length_replicate, List.length_nil]; decide)

-- the assumption on dedicated leaf functions can be met for every degree
example (hP : P.Valid) (hw : P.width = 200) (f : Bits → Bits)
    (hf : ∀ s : Bytes, s.length = 200 → f (Bits.ofBytes s) = Bits.ofBytes (P.permute s)) (D : Nat) (h : 2 ≤ D)
    (h' : D ≤ 8) :
    CfgFits f 256 ⟨D, .processLeaves fun x => leafCVs P (rateBytes 256) 8192 0x0B#8 (capBytes 256) D x⟩ := by
  refine ⟨h, by show D ≤ _; omega, ?_⟩
  rintro F hF x -
  injection hF with hF
  rw [← hF]
  exact leafCVs_spec hP hw f hf (Or.inr rfl) D x

/-! ## C19 -/

/-- **C19.** The encoding of lengths is injective and no encoding is a suffix of another: what precedes an
encoding and the encoded value can be recovered from the end of a string. -/
theorem C19_rightEncode_unique {v w : BitVec 64} {a b : Bytes} (h : a ++ rightEncode v = b ++ rightEncode w) :
    v = w ∧ a = b := by
  have hc : ∀ v : BitVec 64, SP800185.countBytes 8 v ≤ 8 := countBytes_le
  have h1 : SP800185.countBytes 8 v = SP800185.countBytes 8 w := by
    have := congrArg List.getLast? h
    simp only [rightEncode, ← List.append_assoc, List.getLast?_append_cons, List.getLast?_singleton,
      Option.some.injEq] at this
    have := congrArg BitVec.toNat this
    simp only [BitVec.toNat_ofNat] at this
    have := hc v
    have := hc w
    omega
  obtain ⟨h2, h3⟩ := List.append_inj' h (by rw [length_rightEncode, length_rightEncode, h1])
  refine ⟨?_, h2⟩
  by_cases hv : v = 0
  · subst hv
    by_contra hw
    have e1 : SP800185.countBytes 8 0 = 0 := by decide
    have e2 := SP800185.countBytes_eq 8 w (by have := w.isLt; omega)
    rw [if_neg (fun hh => hw hh.symm)] at e2
    have := base256_length_pos w.toNat
    omega
  · have hw : w ≠ 0 := by
      rintro rfl
      have e1 : SP800185.countBytes 8 0 = 0 := by decide
      have e2 := SP800185.countBytes_eq 8 v (by have := v.isLt; omega)
      rw [if_neg hv] at e2
      have := base256_length_pos v.toNat
      omega
    have key : ∀ x : BitVec 64, x ≠ 0 → rightEncode x = SP800185.rightEncode x := by
      intro x hx
      have e2 := SP800185.countBytes_eq 8 x (by have := x.isLt; omega)
      rw [if_neg hx, ← SP800185.encodeLen_eq] at e2
      simp [rightEncode, SP800185.rightEncode, e2]
    rw [key v hv, key w hw] at h3
    exact (SP800185.rightEncode_suffix (a := []) (b := []) (by simpa using h3)).1

/-- **C19.** The encoding is that of RFC 9861. -/
theorem C19_length_encode (v : BitVec 64) : Bits.ofBytes (rightEncode v) = length_encode v.toNat :=
  rightEncode_length_encode v

/-- Calls on a KangarooTwelve instance. -/
inductive Call
  | update (data : Bytes)
  | final (customization : Bytes)
  | squeeze (n : Nat)

def Call.run (P : SnP) (cfgs : Nat → List Cfg) (i : KtInst) : Call → Option (Nat × KtInst)
  | .update d => ktUpdate P cfgs i d
  | .final c => (ktFinal P cfgs i c).map fun x => (x.1, x.2.1)
  | .squeeze n => (ktSqueeze P i n).map fun x => (x.1, x.2.1)

/-- The states of a computation, as documented in KangarooTwelve.h:18-83. -/
inductive Stage | absorbing | squeezing | done
deriving DecidableEq

/-- The documented discipline for output length `L` (0: extendable). -/
def discipline (L : Nat) : Stage → Call → Nat × Stage
  | .absorbing, .update _ => (0, .absorbing)
  | .absorbing, .final _ => (0, if L = 0 then .squeezing else .done)
  | .squeezing, .squeeze _ => (0, .squeezing)
  | s, _ => (1, s)

def runCalls (P : SnP) (cfgs : Nat → List Cfg) (i : KtInst) : List Call → Option (List (Nat × KtInst))
  | [] => some []
  | c :: cs => do
    let x ← c.run P cfgs i
    let xs ← runCalls P cfgs x.2 cs
    some (x :: xs)

def codes (L : Nat) : Stage → List Call → List Nat
  | _, [] => []
  | s, c :: cs => (discipline L s c).1 :: codes L (discipline L s c).2 cs

/-- Every call that returned 1 left the instance as it was. -/
def ErrorsFrame : KtInst → List (Nat × KtInst) → Prop
  | _, [] => True
  | i, x :: xs => (x.1 = 1 → x.2 = i) ∧ ErrorsFrame x.2 xs

/-- The bytes given by a call. -/
def Call.input : Call → Nat
  | .update d => d.length
  | .final c => c.length
  | .squeeze _ => 0

inductive InStage (P : SnP) (sec L : Nat) : Stage → Nat → KtInst → Prop
  | absorbing (S kt) (h : KtOk P sec L S kt) : InStage P sec L .absorbing S.length kt
  | squeezing (q m d k bn n t) : InStage P sec L .squeezing t (ktsq P sec q m d k bn n)
  | done (t kt) (h : kt.phase = .final) : InStage P sec L .done t kt

theorem discipline_step (hP : P.Valid) (hw : P.width = 200) {sec : Nat} (hsec : sec = 128 ∨ sec = 256)
    (cfgs : Nat → List Cfg) (hcfg : ∀ cfg ∈ cfgs sec, CfgOk P (leaf sec) cfg) {L : Nat} {s : Stage} {t : Nat}
    {i : KtInst} (hi : InStage P sec L s t i) (c : Call) (hc : t + c.input < 2 ^ 75) :
    ∃ i' t', c.run P cfgs i = some ((discipline L s c).1, i') ∧ InStage P sec L (discipline L s c).2 t' i' ∧
      ((discipline L s c).1 = 1 → i' = i) ∧ t' ≤ t + c.input := by
  obtain ⟨hr, hr2, -, -⟩ := rateBytes_eq hsec
  cases hi with
  | absorbing S kt h =>
    have hph : ∀ {S : Bytes} {kt : KtInst}, KtOk P sec L S kt → kt.phase = .absorbing := by
      intro S kt h; cases h <;> rfl
    cases c with
    | update d =>
      simp only [Call.input] at hc
      obtain ⟨kt', h1, h2⟩ := ktUpdate_eq hP hw hsec cfgs hcfg h d (by omega)
      exact ⟨kt', _, h1, .absorbing _ _ h2, by simp [discipline], by simp [Call.input]⟩
    | final C =>
      simp only [Call.input] at hc
      have henc := length_rightEncode (BitVec.ofNat 64 C.length)
      have henc' := countBytes_le (BitVec.ofNat 64 C.length)
      obtain ⟨i2, h3, h4⟩ : ∃ i2, (if C.length ≠ 0 then ktUpdate P cfgs i C else some (0, i)) = some (0, i2) ∧
          KtOk P sec L (S ++ C) i2 := by
        by_cases hC0 : C.length = 0
        · refine ⟨i, by simp [hC0], ?_⟩
          rw [List.eq_nil_of_length_eq_zero hC0, List.append_nil]; exact h
        · rw [if_pos hC0]
          exact ktUpdate_eq hP hw hsec cfgs hcfg h C (by omega)
      obtain ⟨i3, h5, h6⟩ := ktUpdate_eq hP hw hsec cfgs hcfg h4 (rightEncode (BitVec.ofNat 64 C.length))
        (by simp only [List.length_append]; omega)
      obtain ⟨m, d, q, bn, n, h7, h8, -⟩ := finNode_eq hP hw hsec h6 (by simp only [List.length_append]; omega)
      have h9 : ktFinal P cfgs i C = finSwitch P (ktabs q (Sponge.absd P (rateBytes sec) m) L bn n sec) d :=
        (ktFinal_of (hph h) h3 h5).trans h8
      by_cases hL : L = 0
      · subst hL
        rw [finSwitch_xof hP hsec hw h7] at h9
        refine ⟨_, 0, by simp only [Call.run, h9, Option.map_some, discipline]; rfl, ?_, by simp [discipline],
          by omega⟩
        simp only [discipline, if_true]
        exact .squeezing _ _ _ _ _ _ _
      · obtain ⟨i', h10, h11⟩ := finSwitch_fixed (sec := sec) (q := q) (m := m) (bn := bn) (n := n) hP hsec hw h7 hL
        rw [h10] at h9
        refine ⟨i', 0, by simp only [Call.run, h9, Option.map_some, discipline], ?_, by simp [discipline],
          by omega⟩
        simp only [discipline, hL, if_false]
        exact .done _ _ h11
    | squeeze n =>
      exact ⟨i, _, by simp [Call.run, ktSqueeze, hph h, discipline], .absorbing S i h, fun _ => rfl, by omega⟩
  | squeezing q m d k bn n =>
    cases c with
    | update d => exact ⟨_, t, by simp [Call.run, ktUpdate, ktsq, discipline], .squeezing _ _ _ _ _ _ _, fun _ => rfl, by omega⟩
    | final C => exact ⟨_, t, by simp [Call.run, ktFinal, ktsq, discipline], .squeezing _ _ _ _ _ _ _, fun _ => rfl, by omega⟩
    | squeeze l =>
      refine ⟨_, t, by simp only [Call.run, ktSqueeze_ktsq hP hsec hw, Option.map_some, discipline]; rfl,
        .squeezing _ _ _ _ _ _ _, by simp [discipline], by omega⟩
  | done _ _ h =>
    cases c with
    | update d => exact ⟨i, t, by simp [Call.run, ktUpdate, h, discipline], .done _ _ h, fun _ => rfl, by omega⟩
    | final C => exact ⟨i, t, by simp [Call.run, ktFinal, h, discipline], .done _ _ h, fun _ => rfl, by omega⟩
    | squeeze l => exact ⟨i, t, by simp [Call.run, ktSqueeze, h, discipline], .done _ _ h, fun _ => rfl, by omega⟩

/-- **C19.** After a successful initialisation, for every history of calls: no call is undefined behaviour, the
return codes are exactly those of the documented discipline, and a call that returns 1 leaves the instance
unchanged. -/
theorem C19_discipline (hP : P.Valid) (hw : P.width = 200) (f : Bits → Bits)
    (hf : ∀ s : Bytes, s.length = 200 → f (Bits.ofBytes s) = Bits.ofBytes (P.permute s)) (level : Int)
    (cfgs : Nat → List Cfg) (hcfg : ∀ sec, ∀ cfg ∈ cfgs sec, CfgFits f sec cfg) (mem i0 : KtInst) (L : Nat)
    (h0 : ktInit P mem level L = (0, i0)) (cs : List Call) (hcs : (cs.map Call.input).sum < 2 ^ 75) :
    ∃ xs, runCalls P cfgs i0 cs = some xs ∧ xs.map Prod.fst = codes L .absorbing cs ∧ ErrorsFrame i0 xs := by
  obtain ⟨sec, hsec, rfl⟩ : ∃ sec : Nat, (sec = 128 ∨ sec = 256) ∧ level = sec := by
    by_cases h : level = 128
    · exact ⟨128, Or.inl rfl, h⟩
    · by_cases h' : level = 256
      · exact ⟨256, Or.inr rfl, h'⟩
      · simp [ktInit, h, h'] at h0
  have hok := fun c hc => cfg_ok hP hw f hf hsec (hcfg sec c hc)
  have hinit : ktInit P mem sec L = (0, ktabs mem.queueNode (Sponge.absd P (rateBytes sec) []) L 0 ([] : Bytes).length sec) := by
    unfold ktInit
    rw [if_neg (by rcases hsec with rfl | rfl <;> decide)]
    have : ((sec : Int)).toNat = sec := by simp
    rw [this, nodeInit_eq hw hsec]
    rfl
  rw [hinit] at h0
  simp only [Prod.mk.injEq, true_and] at h0
  subst h0
  have key : ∀ (cs : List Call) (s : Stage) (t : Nat) (i : KtInst), InStage P sec L s t i →
      t + (cs.map Call.input).sum < 2 ^ 75 →
      ∃ xs, runCalls P cfgs i cs = some xs ∧ xs.map Prod.fst = codes L s cs ∧ ErrorsFrame i xs := by
    intro cs
    induction cs with
    | nil => intro s t i _ _; exact ⟨[], rfl, rfl, trivial⟩
    | cons c cs ih =>
      intro s t i hi ht
      simp only [List.map_cons, List.sum_cons] at ht
      obtain ⟨i', t', h1, h2, h3, h4⟩ := discipline_step hP hw hsec cfgs hok hi c (by omega)
      obtain ⟨xs, h5, h6, h7⟩ := ih _ t' i' h2 (by omega)
      exact ⟨((discipline L s c).1, i') :: xs, by simp [runCalls, h1, h5], by simp [codes, h6], h3, h7⟩
  exact key cs .absorbing 0 _ (.absorbing [] _ (KtOk.first mem.queueNode (S := []) (by simp)))
    (by omega)

example : codes 0 .absorbing [.squeeze 3, .update [1], .final [2], .update [], .final [], .squeeze 5] =
    [1, 0, 0, 1, 1, 0] := by decide
example : codes 7 .absorbing [.update [1], .final [2], .squeeze 5, .final []] = [0, 0, 1, 1] := by decide

end KT
