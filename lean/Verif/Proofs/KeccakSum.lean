import Verif.Proofs.KeccakSumText
import Verif.Props.KeccakHash
import Verif.Props.ParallelHash
import Verif.Props.KangarooTwelve
import Verif.Proofs.Duplex

/-!
# The hashing of KeccakSum
-/

namespace Spec

/-- The sponge function gives as many bits as asked for. -/
theorem length_sponge {f : Bits → Bits} (hf : ∀ S : Bits, S.length = 1600 → (f S).length = 1600) {r : Nat} (hr : 0 < r)
    (hr' : r ≤ 1600) (N : Bits) (d : Nat) : (sponge 1600 f r N d).length = d := by
  have ha : ∀ (Ps : List Bits) (S : Bits), S.length = 1600 → (∀ p ∈ Ps, p.length = r) →
      (absorb f (1600 - r) S Ps).length = 1600 := by
    intro Ps
    induction Ps with
    | nil => intro S hS _; exact hS
    | cons p Ps ih =>
      intro S hS h
      refine ih _ (hf _ ?_) (fun q hq => h q (by simp [hq]))
      have := h p (by simp)
      simp only [xorBits, List.length_zipWith, List.length_append, List.length_replicate]
      omega
  have hrep : ∀ (i : Nat) (S : Bits), S.length = 1600 → (Nat.repeat f i S).length = 1600 := by
    intro i
    induction i with
    | zero => intro S h; exact h
    | succ i ih => intro S h; exact hf _ (ih S h)
  have hS : (absorb f (1600 - r) (List.replicate 1600 false) (blocks r (N ++ pad101 r N.length))).length = 1600 := by
    apply ha
    · exact List.length_replicate
    · intro p hp
      obtain ⟨i, hi, rfl⟩ := List.mem_map.1 hp
      have := List.mem_range.1 hi
      have h2 : (i + 1) * r ≤ (N ++ pad101 r N.length).length := (Nat.mul_le_mul_right r this).trans (Nat.div_mul_le_self _ _)
      rw [Nat.succ_mul] at h2
      rw [List.length_take, List.length_drop]
      omega
  unfold sponge squeeze
  rw [List.length_take]
  have : ∀ n : Nat, ((List.range n).flatMap fun i => (Nat.repeat f i (absorb f (1600 - r) (List.replicate 1600 false)
      (blocks r (N ++ pad101 r N.length)))).take r).length = n * r := by
    intro n
    induction n with
    | zero => rw [List.range_zero, Nat.zero_mul]; rfl
    | succ n ih =>
      rw [List.range_succ, List.flatMap_append, List.length_append, ih, List.flatMap_singleton, List.length_take, hrep _ _ hS,
        Nat.min_eq_left hr', Nat.succ_mul]
  rw [this]
  apply Nat.min_eq_left
  rw [Nat.succ_mul]
  have h1 := Nat.div_add_mod d r
  have h2 := Nat.mod_lt d hr
  have h3 := Nat.mul_comm r (d / r)
  omega

end Spec

namespace KeccakSum

open Spec.KeccakSum (Fn Setting)

/-- `f` and `f12` are the functions on bit strings computed by the permutations the program is linked with, and the parallel
implementations of KT128 fulfil their contract. -/
structure EnvOk (E : Env) (f f12 : Bits → Bits) : Prop where
  valid : E.P24.Valid
  width : E.P24.width = 200
  perm : ∀ s : Bytes, s.length = 200 → f (Bits.ofBytes s) = Bits.ofBytes (E.P24.permute s)
  valid12 : E.P12.Valid
  width12 : E.P12.width = 200
  perm12 : ∀ s : Bytes, s.length = 200 → f12 (Bits.ofBytes s) = Bits.ofBytes (E.P12.permute s)
  kt : ∀ cfg ∈ E.ktCfgs 128, KT.CfgFits f12 128 cfg

/-- The variables of the program agree with what is selected. -/
structure Rel (o : Opts) (s : Setting) : Prop where
  bits : o.specs.hashbitlen.toNat = s.bits
  pos : 0 < s.bits
  bytes : s.bits % 8 = 0
  format : o.base64 = (s.format == .base64)
  fn : match s.fn with
    | .keccak c l => o.specs.algorithm = 0 ∧ o.specs.capacity.toNat = c ∧ o.specs.rate.toNat + c = 1600 ∧ 0 < o.specs.rate.toNat ∧
        o.specs.rate.toNat % 8 = 0 ∧ Bits.DelimitedBy l o.specs.delimitedSuffix
    | .kt128 => o.specs.algorithm = 1
    | .parallelHash t B => o.specs.algorithm = 2 ∧ (t = 128 ∧ o.specs.capacity = 256 ∨ t = 256 ∧ o.specs.capacity = 512) ∧
        ∃ b : BitVec 32, o.specs.blockByteLen = some b ∧ b.toNat = B

/-- The restrictions on what is selected: a block length of ParallelHash is a power of two, at least 8, and fits the parallel implementations. -/
def FnOk (E : Env) : Fn → Prop
  | .parallelHash t B => 8 ≤ B ∧ (∃ k, B = 2 ^ k) ∧ ParallelHash.CfgsFit t B (E.phCfgs t)
  | _ => True

variable {E : Env} {f f12 : Bits → Bits}

/-- Several updates. -/
def feed (E : Env) (specs : Specs) : Inst → List Bytes → Option Inst
  | i, [] => some i
  | i, u :: us => hashUpdate E i specs u >>= fun i => feed E specs i us

theorem perm_length {P : SnP} (hP : P.Valid) (hw : P.width = 200) {f : Bits → Bits}
    (hf : ∀ s : Bytes, s.length = 200 → f (Bits.ofBytes s) = Bits.ofBytes (P.permute s)) (S : Bits) (hS : S.length = 1600) :
    (f S).length = 1600 := by
  obtain ⟨s, h1, rfl⟩ := Spec.Duplex.exists_bytes 200 S hS
  rw [hf s h1, Bits.length_ofBytes, hP.permute_len s (by rw [hw]; exact h1), hw]

theorem digest_length (hE : EnvOk E f f12) {o : Opts} {s : Setting} (h : Rel o s) (M : Bits) :
    (s.fn.digest f f12 M s.bits).length = s.bits := by
  have h24 := perm_length hE.valid hE.width hE.perm
  have h12 := perm_length hE.valid12 hE.width12 hE.perm12
  have hfn := h.fn
  unfold Fn.digest
  match hs : s.fn with
  | .keccak c l =>
    rw [hs] at hfn
    obtain ⟨-, h1, h2, h3, -, -⟩ := hfn
    exact Spec.length_sponge h24 (by omega) (by omega) _ _
  | .kt128 =>
    show (Spec.KangarooTwelve f12 128 M [] s.bits).length = s.bits
    unfold Spec.KangarooTwelve
    split
    · exact Spec.length_sponge h12 (by omega) (by omega) _ _
    · exact Spec.length_sponge h12 (by omega) (by omega) _ _
  | .parallelHash t B =>
    rw [hs] at hfn
    have ht : t = 128 ∨ t = 256 := by rcases hfn.2.1 with ⟨e, -⟩ | ⟨e, -⟩ <;> simp [e]
    show (Spec.ParallelHash f t M B s.bits []).length = s.bits
    unfold Spec.ParallelHash Spec.cSHAKE
    split
    · exact Spec.length_sponge h24 (by omega) (by omega) _ _
    · exact Spec.length_sponge h24 (by omega) (by omega) _ _

theorem bitsOf_full (u : Bytes) : KeccakHash.bitsOf (u, u.length * 8) = Bits.ofBytes u := by
  unfold KeccakHash.bitsOf
  rw [List.take_of_length_le (by rw [Bits.length_ofBytes]; simp; omega)]

theorem flatMap_bitsOf (us : List Bytes) : (us.map fun u => (u, u.length * 8)).flatMap KeccakHash.bitsOf = Bits.ofBytes us.flatten := by
  induction us with
  | nil => rfl
  | cons u us ih =>
    rw [List.map_cons, List.flatMap_cons, ih, List.flatten_cons, Bits.ofBytes_append, bitsOf_full]

theorem mem_length {us : List Bytes} {u : Bytes} (h : u ∈ us) : u.length ≤ us.flatten.length := by
  induction us with
  | nil => cases h
  | cons v us ih =>
    rw [List.flatten_cons, List.length_append]
    rcases List.mem_cons.1 h with rfl | h
    · omega
    · have := ih h; omega

theorem feed_keccak {specs : Specs} (ha : specs.algorithm = 0) : ∀ (us : List Bytes) (i : HashInst) (cs : List Nat) (i' : HashInst),
    8 * us.flatten.length < 2 ^ 64 →
    KeccakHash.updates E.P24 i (us.map fun u => (u, u.length * 8)) = some (cs, i') → feed E specs (.keccak i) us = some (.keccak i') := by
  intro us
  induction us with
  | nil => intro i cs i' _ h; simp only [List.map_nil, KeccakHash.updates, Option.some.injEq, Prod.mk.injEq] at h; rw [← h.2]; rfl
  | cons u us ih =>
    intro i cs i' hl h
    rw [List.flatten_cons, List.length_append] at hl
    simp only [List.map_cons, KeccakHash.updates, Option.bind_eq_bind, Option.bind_eq_some_iff] at h
    obtain ⟨⟨c1, i1⟩, h1, ⟨c2, i2⟩, h2, h3⟩ := h
    simp only [Option.some.injEq, Prod.mk.injEq] at h3
    obtain ⟨-, rfl⟩ := h3
    have e : u.length * 8 % 2 ^ 64 = u.length * 8 := Nat.mod_eq_of_lt (by omega)
    simp only [feed, hashUpdate, e, if_pos (show specs.algorithm = algorithm_Keccak from ha), h1, Option.bind_eq_bind, Option.bind_some]
    exact ih i1 c2 i2 (by omega) h2

theorem feed_kt {specs : Specs} (ha : specs.algorithm = 1) : ∀ (us : List Bytes) (i : KtInst) (cs : List Nat) (i' : KtInst),
    KT.ktUpdates E.P12 E.ktCfgs i us = some (cs, i') → feed E specs (.k12 i) us = some (.k12 i') := by
  intro us
  induction us with
  | nil => intro i cs i' h; simp only [KT.ktUpdates, Option.some.injEq, Prod.mk.injEq] at h; rw [← h.2]; rfl
  | cons u us ih =>
    intro i cs i' h
    simp only [KT.ktUpdates, Option.bind_eq_bind, Option.bind_eq_some_iff] at h
    obtain ⟨⟨c1, i1⟩, h1, ⟨c2, i2⟩, h2, h3⟩ := h
    simp only [Option.some.injEq, Prod.mk.injEq] at h3
    obtain ⟨-, rfl⟩ := h3
    simp only [feed, hashUpdate, if_pos (show specs.algorithm = algorithm_K12 from ha), h1, Option.bind_eq_bind, Option.bind_some]
    exact ih i1 c2 i2 h2

theorem feed_ph {specs : Specs} (ha : specs.algorithm = 2) {t : Nat}
    (ht : t = 128 ∧ specs.capacity = 256 ∨ t = 256 ∧ specs.capacity = 512) :
    ∀ (us : List Bytes) (i : PhInst) (cs : List Nat) (i' : PhInst), 8 * us.flatten.length < 2 ^ 64 →
    ParallelHash.phUpdates E.P24 t (E.phCfgs t) i (us.map fun u => (u, u.length * 8)) = some (cs, i') →
    feed E specs (.ph i) us = some (.ph i') := by
  intro us
  induction us with
  | nil => intro i cs i' _ h; simp only [List.map_nil, ParallelHash.phUpdates, Option.some.injEq, Prod.mk.injEq] at h; rw [← h.2]; rfl
  | cons u us ih =>
    intro i cs i' hl h
    rw [List.flatten_cons, List.length_append] at hl
    simp only [List.map_cons, ParallelHash.phUpdates, Option.bind_eq_bind, Option.bind_eq_some_iff] at h
    obtain ⟨⟨c1, i1⟩, h1, ⟨c2, i2⟩, h2, h3⟩ := h
    simp only [Option.some.injEq, Prod.mk.injEq] at h3
    obtain ⟨-, rfl⟩ := h3
    have e : u.length * 8 % 2 ^ 64 = u.length * 8 := Nat.mod_eq_of_lt (by omega)
    have step : hashUpdate E (.ph i) specs u = some (.ph i1) := by
      rcases ht with ⟨rfl, hc⟩ | ⟨rfl, hc⟩
      · simp only [hashUpdate, e, if_pos (show specs.algorithm = algorithm_ParallelHash from ha), hc, if_true, h1, Option.bind_eq_bind,
          Option.bind_some]
      · simp only [hashUpdate, e, if_pos (show specs.algorithm = algorithm_ParallelHash from ha), hc,
          if_neg (show ¬ (512 : BitVec 32) = 256 by decide), if_true, h1, Option.bind_eq_bind, Option.bind_some]
    simp only [feed, step, Option.bind_eq_bind, Option.bind_some]
    exact ih i1 c2 i2 (by omega) h2

/-- Initialisation, updates and the end give the digest selected. -/
theorem hash_spec (hE : EnvOk E f f12) {o : Opts} {s : Setting} (h : Rel o s) (hok : FnOk E s.fn) (hb : s.bits ≤ 524288)
    (us : List Bytes) (hus : 8 * us.flatten.length < 2 ^ 64) :
    ∃ i0 i1 out, hashInitialize E o.specs = some (some i0) ∧ feed E o.specs i0 us = some i1 ∧ hashFinal E i1 o.specs = some out ∧
      out.length = s.bits / 8 ∧ Bits.ofBytes out = s.fn.digest f f12 (Bits.ofBytes us.flatten) s.bits := by
  have hfn := h.fn
  have hbits := h.bits
  have hpos := h.pos
  have h8 := h.bytes
  have hlen := digest_length hE h (Bits.ofBytes us.flatten)
  suffices hs : ∃ i0 i1 out, hashInitialize E o.specs = some (some i0) ∧ feed E o.specs i0 us = some i1 ∧
      (Bits.ofBytes out = s.fn.digest f f12 (Bits.ofBytes us.flatten) s.bits → out.length ≤ bufferSize → hashFinal E i1 o.specs = some out) ∧
      Bits.ofBytes out = s.fn.digest f f12 (Bits.ofBytes us.flatten) s.bits by
    obtain ⟨i0, i1, out, k1, k2, k3, k4⟩ := hs
    have hl : out.length = s.bits / 8 := by
      have := congrArg List.length k4
      rw [Bits.length_ofBytes, hlen] at this
      omega
    exact ⟨i0, i1, out, k1, k2, k3 k4 (by unfold bufferSize; omega), hl, k4⟩
  match hs : s.fn with
  | .keccak c l =>
    rw [hs] at hfn
    obtain ⟨ha, h1, h2, h3, h4, h5⟩ := hfn
    obtain ⟨i0, hi⟩ : ∃ i0, KeccakHash.hashInit E.P24 E.mem.1 o.specs.rate o.specs.capacity o.specs.hashbitlen o.specs.delimitedSuffix =
        (0, i0) := by
      have := ((KeccakHash.C09_init_iff (P := E.P24) (by rw [hE.width]; decide) E.mem.1 o.specs.rate o.specs.capacity o.specs.hashbitlen
        o.specs.delimitedSuffix).1).2 ⟨h5.ne_zero, by rw [hE.width, h1, h2], h3, h4⟩
      exact ⟨_, Prod.ext this rfl⟩
    obtain ⟨hs0, hr, hrw, hr8, hi0⟩ := KeccakHash.hashInit_ok (by rw [hE.width]; decide) hi
    obtain ⟨m, k1, k2⟩ := KeccakHash.updates_eq hE.valid hr hrw o.specs.hashbitlen.toNat l o.specs.delimitedSuffix h5
      (us.map fun u => (u, u.length * 8)) [] (by
        intro u hu
        obtain ⟨v, _, rfl⟩ := List.mem_map.1 hu
        exact ⟨by simp, by simp; omega⟩)
    rw [← hi0] at k1
    rw [flatMap_bitsOf, Bits.ofBytes_nil, List.nil_append] at k2
    refine ⟨.keccak i0, .keccak _, Sponge.out E.P24 (o.specs.rate.toNat / 8) m o.specs.delimitedSuffix (o.specs.hashbitlen.toNat / 8), ?_,
      feed_keccak ha us i0 _ _ hus k1, ?_, ?_⟩
    · unfold hashInitialize
      rw [if_pos (show o.specs.algorithm = algorithm_Keccak from ha), hi]
      rfl
    · intro _ hl
      simp only [hashFinal, if_pos (show o.specs.algorithm = algorithm_Keccak from ha), KeccakHash.hashFinal, KeccakHash.habsd,
        Sponge.lastFewBits_absd hE.valid hr hrw m _ hs0, Option.bind_eq_bind, Option.bind_some, if_true,
        Sponge.squeeze_sqd hE.valid hr hrw, Nat.zero_add, List.drop_zero, if_pos hl]
    · rw [Sponge.out_spec hE.valid f (by rw [hE.width]; exact hE.perm) hr hrw m l _ h5, hr8, k2, hE.width, hbits]
      have e1 : o.specs.rate.toNat = 1600 - c := by omega
      have e2 : 8 * (s.bits / 8) = s.bits := by omega
      rw [e1, e2]
      rfl
  | .kt128 =>
    rw [hs] at hfn
    have ha : o.specs.algorithm = 1 := hfn
    obtain ⟨i0, i1, i2, out, k0, k1, k2, k3⟩ := KT.C18_KangarooTwelve hE.valid12 hE.width12 f12 hE.perm12 (sec := 128) (Or.inl rfl) E.ktCfgs
      hE.kt E.mem.2.1 (s.bits / 8) (by omega) us [] (by decide) (by omega)
    refine ⟨.k12 i0, .k12 i1, out, ?_, feed_kt ha us i0 _ _ k1, ?_, ?_⟩
    · unfold hashInitialize
      rw [if_neg (by rw [ha]; decide), if_pos (show o.specs.algorithm = algorithm_K12 from ha), hbits]
      have k0 : KT.ktInit E.P12 E.mem.2.1 128 (s.bits / 8) = (0, i0) := k0
      rw [k0]
      rfl
    · intro _ hl
      simp only [hashFinal, if_pos (show o.specs.algorithm = algorithm_K12 from ha), k2, Option.bind_eq_bind, Option.bind_some, if_pos hl]
    · rw [k3]
      have e2 : 8 * (s.bits / 8) = s.bits := by omega
      rw [e2]
      rfl
  | .parallelHash t B =>
    rw [hs] at hfn hok
    obtain ⟨ha, ht, b, hb1, hb2⟩ := hfn
    obtain ⟨hB8, hB2, hfit⟩ := hok
    have ht' : t = 128 ∨ t = 256 := by rcases ht with ⟨e, -⟩ | ⟨e, -⟩ <;> simp [e]
    have hB64 : B < 2 ^ 64 := by have := b.isLt; omega
    have hbf := flatMap_bitsOf us
    obtain ⟨i0, i1, i2, out, k0, k1, k2, k3⟩ := ParallelHash.C15_ParallelHash_partial hE.valid hE.width f hE.perm ht' hB8 hB2 hB64
      (E.phCfgs t) hfit [] 0 (by simp) (by decide) (by unfold Bits.CleanAt; decide) (us.map fun u => (u, u.length * 8)) (by
        intro u hu
        obtain ⟨v, _, rfl⟩ := List.mem_map.1 hu
        exact ⟨by simp, by simp; omega⟩) (by
        have e : ((us.map fun u => (u, u.length * 8)).flatMap SP800185.bitsOf).length = (Bits.ofBytes us.flatten).length := congrArg _ hbf
        rw [e, Bits.length_ofBytes]; exact hus) E.mem.2.2 s.bits (by omega) (by omega)
    have hbf' : (us.map fun u => (u, u.length * 8)).flatMap SP800185.bitsOf = Bits.ofBytes us.flatten := hbf
    rw [hbf'] at k3
    refine ⟨.ph i0, .ph i1, out, ?_, feed_ph ha ht us i0 _ _ hus k1, ?_, ?_⟩
    · unfold hashInitialize
      rw [if_neg (by rw [ha]; decide), if_neg (by rw [ha]; decide), if_pos (show o.specs.algorithm = algorithm_ParallelHash from ha),
        hb1, hbits]
      rcases ht with ⟨rfl, hc⟩ | ⟨rfl, hc⟩
      · simp only [hc, if_true, Option.bind_eq_bind, Option.bind_some, hb2, k0]; rfl
      · simp only [hc, if_neg (show ¬ (512 : BitVec 32) = 256 by decide), if_true, Option.bind_eq_bind, Option.bind_some, hb2, k0]; rfl
    · intro _ hl
      rcases ht with ⟨rfl, hc⟩ | ⟨rfl, hc⟩
      · simp only [hashFinal, if_pos (show o.specs.algorithm = algorithm_ParallelHash from ha), hc, if_true, k2, Option.bind_eq_bind,
          Option.bind_some, if_pos hl]
      · simp only [hashFinal, if_pos (show o.specs.algorithm = algorithm_ParallelHash from ha), hc,
          if_neg (show ¬ (512 : BitVec 32) = 256 by decide), if_true, k2, Option.bind_eq_bind, Option.bind_some, if_pos hl]
    · rw [hs] at hlen
      have hlen : (Spec.ParallelHash f t (Bits.ofBytes us.flatten) B s.bits []).length = s.bits := hlen
      have k3 : SP800185.Represents out (Spec.ParallelHash f t (Bits.ofBytes us.flatten) B s.bits []) := k3
      unfold SP800185.Represents at k3
      rw [hlen] at k3
      have e : 8 * ((s.bits + 7) / 8) - s.bits = 0 := by omega
      rw [e, List.replicate_zero, List.append_nil] at k3
      rw [k3]
      rfl

/-! ### Files and strings -/

/-- The loop that reads a file feeds its contents. -/
theorem readLoop_eq (specs : Specs) : ∀ (fuel : Nat) (contents : Bytes), contents.length < fuel →
    ∃ us : List Bytes, us.flatten = contents ∧ ∀ i, readLoop E specs fuel i contents = feed E specs i us := by
  intro fuel
  induction fuel with
  | zero => intro c h; omega
  | succ fuel ih =>
    intro c h
    by_cases h0 : c.length = 0
    · have : c = [] := List.eq_nil_of_length_eq_zero h0
      subst this
      exact ⟨[], rfl, fun i => by simp [readLoop, feed]⟩
    · obtain ⟨us, k1, k2⟩ := ih (c.drop bufferSize) (by rw [List.length_drop]; unfold bufferSize; omega)
      refine ⟨c.take bufferSize :: us, by rw [List.flatten_cons, k1, List.take_append_drop], fun i => ?_⟩
      have hpos : (c.take bufferSize).length > 0 := by rw [List.length_take]; unfold bufferSize; omega
      simp only [readLoop, feed, if_pos hpos, k2]

/-- A digest that can be displayed: the encoding and a zero fit in an array of 131072 characters. -/
def BitsOk (s : Setting) : Prop := s.bits ≤ 524288 ∧ (s.format = .hex → s.bits < 524288)

theorem text_eq (x : String) : str x = Spec.KeccakSum.text x := rfl

theorem printDigest_eq {o : Opts} {s : Setting} (h : Rel o s) (hb : BitsOk s) (d name : Bytes) (hd : d.length = s.bits / 8) :
    printDigest o.specs o.base64 d name =
      some (0, [.text (s.format.encode d ++ Spec.KeccakSum.text "  " ++ name ++ Spec.KeccakSum.text "\n")]) := by
  have hbits := h.bits
  have h8 := h.bytes
  obtain ⟨hb1, hb2⟩ := hb
  have el : (o.specs.hashbitlen.toNat + 7) % 2 ^ 32 / 8 = s.bits / 8 := by rw [hbits]; omega
  unfold printDigest
  simp only [el, h.format]
  cases hf : s.format with
  | base64 =>
    obtain ⟨c, w, k1, -, -, k2, k3⟩ := base64encode_eq d (s.bits / 8) (bufferSize * 2) (by omega)
    have hc : c = 0 := k2.2 (by unfold bufferSize; omega)
    subst hc
    have hw := k3 rfl
    rw [List.take_of_length_le (by omega)] at hw
    rw [if_pos (by decide), k1]
    simp only [Option.bind_eq_bind, Option.bind_some, ne_eq, not_true_eq_false, if_false, hw, cstr_append _ (base64_ne_zero d)]
    rfl
  | hex =>
    have hb2 := hb2 hf
    obtain ⟨c, w, k1, -, -, k2, k3⟩ := hexencode_eq d (s.bits / 8) (bufferSize * 2) (by omega)
    have hc : c = 0 := k2.2 (by unfold bufferSize; omega)
    subst hc
    have hw := k3 rfl
    rw [List.take_of_length_le (by omega)] at hw
    rw [if_neg (by decide), k1]
    simp only [Option.bind_eq_bind, Option.bind_some, ne_eq, not_true_eq_false, if_false, hw, cstr_append _ (hex_ne_zero d)]
    rfl

/-- What is printed for a job. -/
def Printed (f f12 : Bits → Bits) (j : Spec.KeccakSum.Job) (i : Item) : Prop :=
  ∃ d : Bytes, Bits.ofBytes d = j.setting.fn.digest f f12 (Bits.ofBytes j.contents) j.setting.bits ∧ i = .text (j.line d)

theorem processContents_eq (hE : EnvOk E f f12) {o : Opts} {s : Setting} (h : Rel o s) (hok : FnOk E s.fn) (hb : BitsOk s)
    (contents name : Bytes) (hl : 8 * contents.length < 2 ^ 64) :
    ∃ i, processContents E o.specs o.base64 contents name = some (0, [i]) ∧ Printed f f12 ⟨s, contents, name⟩ i := by
  obtain ⟨us, rfl, hus⟩ := readLoop_eq (E := E) o.specs (contents.length + 1) contents (by omega)
  obtain ⟨i0, i1, out, k1, k2, k3, k4, k5⟩ := hash_spec hE h hok hb.1 us hl
  refine ⟨_, ?_, out, k5, rfl⟩
  unfold processContents
  simp only [k1, Option.bind_eq_bind, Option.bind_some, hus, k2, k3, printDigest_eq h hb out name k4]
  rfl

theorem processString_eq (hE : EnvOk E f f12) {o : Opts} {s : Setting} (h : Rel o s) (hok : FnOk E s.fn) (hb : BitsOk s)
    (x : Bytes) (hl : 8 * x.length < 2 ^ 64) :
    ∃ i, processString E x o.specs o.base64 = some (0, [i]) ∧
      Printed f f12 ⟨s, x, Spec.KeccakSum.text "\"" ++ x ++ Spec.KeccakSum.text "\""⟩ i := by
  obtain ⟨i0, i1, out, k1, k2, k3, k4, k5⟩ := hash_spec hE h hok hb.1 [x] (by simpa using hl)
  have hx : [x].flatten = x := by simp
  rw [hx] at k5
  have k2' : hashUpdate E i0 o.specs x = some i1 := by
    simp only [feed, Option.bind_eq_bind] at k2
    cases hu : hashUpdate E i0 o.specs x with
    | none => rw [hu] at k2; cases k2
    | some j => rw [hu] at k2; exact k2
  refine ⟨_, ?_, out, k5, rfl⟩
  unfold processString
  have hlim : ¬ o.specs.hashbitlen.toNat > bufferSize * 8 := by rw [h.bits]; have := hb.1; unfold bufferSize; omega
  simp only [if_neg hlim, k1, Option.bind_eq_bind, Option.bind_some, k2', k3, printDigest_eq h hb out _ k4]
  rfl

theorem processFile_eq (hE : EnvOk E f f12) {o : Opts} {s : Setting} (h : Rel o s) (hok : FnOk E s.fn) (hb : BitsOk s)
    (stdin name contents : Bytes) (hc : if name = Spec.KeccakSum.text "-" then contents = stdin else E.files name = some contents)
    (hl : 8 * contents.length < 2 ^ 64) :
    ∃ i, processFile E stdin name o.specs o.base64 =
        some (0, [i], if name = Spec.KeccakSum.text "-" then [] else stdin) ∧ Printed f f12 ⟨s, contents, name⟩ i := by
  obtain ⟨i, k1, k2⟩ := processContents_eq hE h hok hb contents name hl
  refine ⟨i, ?_, k2⟩
  have hlim : ¬ o.specs.hashbitlen.toNat > bufferSize * 8 := by rw [h.bits]; have := hb.1; unfold bufferSize; omega
  unfold processFile
  rw [if_neg hlim]
  by_cases hn : name = Spec.KeccakSum.text "-"
  · rw [if_pos hn] at hc
    subst hc
    rw [if_pos (show name = str "-" from hn), if_pos hn, k1]
    rfl
  · rw [if_neg hn] at hc
    rw [if_neg (show ¬ name = str "-" from hn), if_neg hn, hc]
    simp only [k1]
    rfl

/-! ### Numbers -/

theorem sscanf_eq (d : Bytes) (h : Spec.KeccakSum.IsDecimal d) (hd : Spec.KeccakSum.decimal d < 2 ^ 31) :
    sscanf d = some (1, (Spec.KeccakSum.decimal d : Int)) := by
  obtain ⟨hne, hall⟩ := h
  obtain ⟨c, t, rfl⟩ : ∃ c t, d = c :: t := by cases d with
    | nil => exact absurd rfl hne
    | cons c t => exact ⟨c, t, rfl⟩
  have hz : ('0' : Char).toNat = 48 := rfl
  have hn : ('9' : Char).toNat = 57 := rfl
  rw [hz, hn] at hall
  have hc := hall c (by simp)
  have h1 : (c :: t).dropWhile isspace = c :: t := by
    rw [List.dropWhile_cons, if_neg]
    simp [isspace]; omega
  have h2 : ¬ ((c :: t).head? = some 0x2D) := by
    intro e
    have : c = 0x2D := by simpa using e
    subst this; revert hc; decide
  have h3 : ¬ ((c :: t).head? = some 0x2B) := by
    intro e
    have : c = 0x2B := by simpa using e
    subst this; revert hc; decide
  have h4 : (c :: t).takeWhile isdigit = c :: t := by
    have e := List.takeWhile_append_of_pos (p := isdigit) (l₁ := c :: t) (l₂ := []) (by
      intro x hx
      have := hall x hx
      simp [isdigit]; omega)
    rw [List.append_nil, List.takeWhile_nil, List.append_nil] at e
    exact e
  unfold sscanf
  simp only [h1, h2, h3, or_self, if_false, h4, reduceCtorEq, decide_false]
  have e : value (c :: t) = Spec.KeccakSum.decimal (c :: t) := rfl
  rw [e, if_pos]
  omega

/-! ### The command line -/

open Spec.KeccakSum (Opt Job jobs text IsDecimal decimal)

/-- What is asked of an option, the setting before being `s`: numbers are positive and fit in an `int`, output lengths are whole
bytes, files can be read and their names do not look like options, and an option of the Keccak family is not given after one of
KangarooTwelve or ParallelHash. -/
def OptOk (E : Env) (files : Bytes → Bytes) (s : Setting) : Opt → Prop
  | .outputBits _ d => IsDecimal d ∧ 0 < decimal d ∧ decimal d % 8 = 0 ∧ decimal d < 2 ^ 31
  | .block d => IsDecimal d ∧ 0 < decimal d ∧ decimal d < 2 ^ 31
  | .shake128 | .shake256 | .sha3_224 | .sha3_256 | .sha3_384 | .sha3_512 | .ethereum => ∃ c l, s.fn = .keccak c l
  | .file name => name = text "-" ∨ name.head? ≠ some 0x2D ∧ E.files name = some (files name)
  | _ => True

/-- All options are fine. -/
def LineOk (E : Env) (files : Bytes → Bytes) : Setting → List Opt → Prop
  | _, [] => True
  | s, o :: l => OptOk E files s o ∧ LineOk E files (o.apply s) l

/-- What is asked of the things to hash. -/
def JobOk (E : Env) (j : Job) : Prop := FnOk E j.setting.fn ∧ BitsOk j.setting ∧ 8 * j.contents.length < 2 ^ 64

/-- A function of the Keccak family was selected. -/
theorem rel_keccak {o : Opts} {s : Setting} (h : Rel o s) (hs : ∃ c l, s.fn = .keccak c l) : o.specs.algorithm = 0 := by
  obtain ⟨c, l, e⟩ := hs
  have := h.fn
  rw [e] at this
  exact this.1

theorem rel_fixed (al : Nat) (hal : al = 0) (rate cap bits : BitVec 32) (suf : Byte) (B : Option (BitVec 32)) (b64 : Bool) (c n : Nat)
    (l : Bits) (fmt : Spec.KeccakSum.Format) (h : (bits.toNat = n ∧ 0 < n ∧ n % 8 = 0 ∧ b64 = (fmt == .base64)) ∧ cap.toNat = c ∧
      rate.toNat + c = 1600 ∧ 0 < rate.toNat ∧ rate.toNat % 8 = 0 ∧ Bits.DelimitedBy l suf) :
    Rel ⟨⟨al, rate, cap, bits, suf, B⟩, b64⟩ ⟨.keccak c l, n, fmt⟩ :=
  ⟨h.1.1, h.1.2.1, h.1.2.2.1, h.1.2.2.2, hal, h.2⟩

/-- The options that only set something. -/
theorem step_set {files : Bytes → Bytes} {o : Opts} {s : Setting} (h : Rel o s) (x : Opt) (hx : OptOk E files s x)
    (hn : x.isFile = false) (hs : ∀ t, x ≠ .string t) :
    ∃ o', (∀ rest stdin was out, processArgs E (x.words ++ rest) o stdin was out = processArgs E rest o' stdin was out) ∧
      Rel o' (x.apply s) := by
  have key : ∀ (w : Bytes) (o' : Opts), setOption o w = some o' → x.words = [w] →
      ∀ rest stdin was out, processArgs E (x.words ++ rest) o stdin was out = processArgs E rest o' stdin was out := by
    intro w o' h1 h2 rest stdin was out
    rw [h2, List.cons_append, List.nil_append]
    conv_lhs => unfold processArgs
    simp only [h1]
  cases x with
  | string t => exact absurd rfl (hs t)
  | file n => cases hn
  | base64 => exact ⟨_, key (text "--base64") _ rfl rfl, { h with format := rfl }⟩
  | hex => exact ⟨_, key (text "--hex") _ rfl rfl, { h with format := rfl }⟩
  | shake128 =>
    exact ⟨_, key (text "--shake128") _ rfl rfl, rel_fixed _ (rel_keccak h hx) _ _ _ _ _ _ _ _ _ _ (by decide)⟩
  | shake256 =>
    exact ⟨_, key (text "--shake256") _ rfl rfl, rel_fixed _ (rel_keccak h hx) _ _ _ _ _ _ _ _ _ _ (by decide)⟩
  | sha3_224 =>
    exact ⟨_, key (text "--sha3-224") _ rfl rfl, rel_fixed _ (rel_keccak h hx) _ _ _ _ _ _ _ _ _ _ (by decide)⟩
  | sha3_256 =>
    exact ⟨_, key (text "--sha3-256") _ rfl rfl, rel_fixed _ (rel_keccak h hx) _ _ _ _ _ _ _ _ _ _ (by decide)⟩
  | sha3_384 =>
    exact ⟨_, key (text "--sha3-384") _ rfl rfl, rel_fixed _ (rel_keccak h hx) _ _ _ _ _ _ _ _ _ _ (by decide)⟩
  | sha3_512 =>
    exact ⟨_, key (text "--sha3-512") _ rfl rfl, rel_fixed _ (rel_keccak h hx) _ _ _ _ _ _ _ _ _ _ (by decide)⟩
  | ethereum =>
    exact ⟨_, key (text "--ethereum") _ rfl rfl, rel_fixed _ (rel_keccak h hx) _ _ _ _ _ _ _ _ _ _ (by decide)⟩
  | noSuffix =>
    refine ⟨_, key (text "--no-suffix") _ rfl rfl, { bits := h.bits, pos := h.pos, bytes := h.bytes, format := h.format, fn := ?_ }⟩
    have hfn := h.fn
    simp only [Opt.apply]
    match hs : s.fn with
    | .keccak c l =>
      rw [hs] at hfn
      exact ⟨hfn.1, hfn.2.1, hfn.2.2.1, hfn.2.2.2.1, hfn.2.2.2.2.1, by show Bits.DelimitedBy [] 0x01; decide⟩
    | .kt128 => rw [hs] at hfn; exact hfn
    | .parallelHash t B => rw [hs] at hfn; exact hfn
  | k12 short =>
    cases short with
    | true => exact ⟨_, key (text "--k12") _ rfl rfl, ⟨rfl, Nat.succ_pos _, (by decide : 264 % 8 = 0), rfl, rfl⟩⟩
    | false => exact ⟨_, key (text "--kangarootwelve") _ rfl rfl, ⟨rfl, Nat.succ_pos _, (by decide : 264 % 8 = 0), rfl, rfl⟩⟩
  | ph128 => exact ⟨_, key (text "--ph128") _ rfl rfl, ⟨rfl, Nat.succ_pos _, (by decide : 264 % 8 = 0), rfl, rfl, Or.inl ⟨rfl, rfl⟩, 8192, rfl, rfl⟩⟩
  | ph256 => exact ⟨_, key (text "--ph256") _ rfl rfl, ⟨rfl, Nat.succ_pos _, (by decide : 528 % 8 = 0), rfl, rfl, Or.inr ⟨rfl, rfl⟩, 8192, rfl, rfl⟩⟩
  | outputBits short d =>
    obtain ⟨h1, h2, h3, h4⟩ := hx
    have hi : (BitVec.ofInt 32 (decimal d : Int)).toNat = decimal d := by
      rw [BitVec.ofInt_natCast, BitVec.toNat_ofNat]; omega
    have hset : setOutputBits o d = some (some { o with specs := { o.specs with hashbitlen := BitVec.ofInt 32 (decimal d : Int) } }) := by
      unfold setOutputBits
      rw [sscanf_eq d h1 h4]
      simp only [Option.bind_eq_bind, Option.bind_some]
      rw [if_pos]
      refine ⟨by decide, by omega, ?_⟩
      rw [Int.tmod_eq_emod_of_nonneg (by omega)]; omega
    refine ⟨{ o with specs := { o.specs with hashbitlen := BitVec.ofInt 32 (decimal d : Int) } }, ?_,
      { bits := hi, pos := h2, bytes := h3, format := h.format, fn := h.fn }⟩
    intro rest stdin was out
    have go : ∀ w : Bytes, setOption o w = none → kind w = .outputbits → processArgs E ([w, d] ++ rest) o stdin was out =
        processArgs E rest { o with specs := { o.specs with hashbitlen := BitVec.ofInt 32 (decimal d : Int) } } stdin was out := by
      intro w k1 k2
      rw [List.cons_append, List.cons_append, List.nil_append]
      conv_lhs => unfold processArgs
      simp only [k1, k2, hset, Option.bind_eq_bind, Option.bind_some]
    cases short with
    | true => exact go (text "-n") rfl rfl
    | false => exact go (text "--outputbits") rfl rfl
  | block d =>
    obtain ⟨h1, h2, h4⟩ := hx
    have hi : (BitVec.ofInt 32 (decimal d : Int)).toNat = decimal d := by
      rw [BitVec.ofInt_natCast, BitVec.toNat_ofNat]; omega
    have hset : setBlock o d = some (some { o with specs := { o.specs with blockByteLen := some (BitVec.ofInt 32 (decimal d : Int)) } }) := by
      unfold setBlock
      rw [sscanf_eq d h1 h4]
      simp only [Option.bind_eq_bind, Option.bind_some]
      rw [if_pos]
      exact ⟨by decide, by omega⟩
    refine ⟨{ o with specs := { o.specs with blockByteLen := some (BitVec.ofInt 32 (decimal d : Int)) } }, ?_,
      { bits := h.bits, pos := h.pos, bytes := h.bytes, format := h.format, fn := ?_ }⟩
    · intro rest stdin was out
      show processArgs E ([text "-B", d] ++ rest) o stdin was out = _
      have k1 : setOption o (text "-B") = none := rfl
      have k2 : kind (text "-B") = .block := rfl
      rw [List.cons_append, List.cons_append, List.nil_append]
      conv_lhs => unfold processArgs
      simp only [k1, k2, hset, Option.bind_eq_bind, Option.bind_some]
    · have hfn := h.fn
      simp only [Opt.apply]
      match hs : s.fn with
      | .keccak c l => rw [hs] at hfn; exact hfn
      | .kt128 => rw [hs] at hfn; exact hfn
      | .parallelHash t B => rw [hs] at hfn; exact ⟨hfn.1, hfn.2.1, _, rfl, hi⟩

theorem str_ne {name : Bytes} (h : name.head? ≠ some 0x2D) {w : Bytes} (hw : w.head? = some 0x2D) : ¬ w = name := by
  intro e; rw [e] at hw; exact h hw

/-- A file name is not taken for an option. -/
theorem name_ok (o : Opts) (name : Bytes) (h : name = text "-" ∨ name.head? ≠ some 0x2D) :
    setOption o name = none ∧ kind name = .other ∧ unrecognized name = false := by
  rcases h with rfl | h
  · exact ⟨rfl, rfl, rfl⟩
  · have e : ∀ w : Bytes, w.head? = some 0x2D → (w = name) = False := fun w hw => eq_false (str_ne h hw)
    refine ⟨?_, ?_, ?_⟩
    · unfold setOption
      rw [if_neg (str_ne h rfl), if_neg (str_ne h rfl), if_neg (str_ne h rfl), if_neg (str_ne h rfl), if_neg (str_ne h rfl),
        if_neg (str_ne h rfl), if_neg (str_ne h rfl), if_neg (str_ne h rfl), if_neg (str_ne h rfl), if_neg (str_ne h rfl),
        if_neg (by rintro (k | k); exacts [str_ne h rfl k, str_ne h rfl k]), if_neg (str_ne h rfl), if_neg (str_ne h rfl)]
    · unfold kind
      rw [if_neg (by rintro (k | k); exacts [str_ne h rfl k, str_ne h rfl k]), if_neg (str_ne h rfl), if_neg (str_ne h rfl),
        if_neg (by rintro (k | k); exacts [str_ne h rfl k, str_ne h rfl k])]
    · unfold unrecognized
      rw [decide_eq_false]
      rintro ⟨h1, h2⟩
      apply h
      have := congrArg List.head? h2
      rw [List.head?_take, if_neg (by omega)] at this
      rw [this]; rfl

theorem process_eq (hE : EnvOk E f f12) (files : Bytes → Bytes) : ∀ (l : List Opt) (o : Opts) (s : Setting) (stdin : Bytes) (was : Bool)
    (out : List Item) (L : List Opt), Rel o s → LineOk E files s l →
    L = (if was || l.any Opt.isFile then l else l ++ [.file (text "-")]) →
    (∀ j ∈ jobs files s stdin L, JobOk E j) →
    ∃ items, processArgs E (l.flatMap Opt.words) o stdin was out = some (0, out ++ items) ∧
      List.Forall₂ (Printed f f12) (jobs files s stdin L) items := by
  intro l
  induction l with
  | nil =>
    intro o s stdin was out L h _ hL hj
    cases was with
    | true =>
      subst hL
      exact ⟨[], by rw [List.append_nil]; rfl, .nil⟩
    | false =>
      have hL : L = [.file (text "-")] := hL
      subst hL
      have e : jobs files s stdin [.file (text "-")] = [⟨s, stdin, text "-"⟩] := rfl
      rw [e] at hj ⊢
      obtain ⟨h1, h2, h3⟩ := hj _ (List.mem_singleton.2 rfl)
      obtain ⟨i, k1, k2⟩ := processFile_eq hE h h1 h2 stdin (text "-") stdin (by rw [if_pos rfl]) h3
      refine ⟨[i], ?_, .cons k2 .nil⟩
      show processArgs E [] o stdin false out = _
      rw [processArgs]
      unfold finish
      have k1 : processFile E stdin (str "-") o.specs o.base64 = _ := k1
      rw [k1]
      rfl
  | cons x l ih =>
    intro o s stdin was out L h hl hL hj
    obtain ⟨hx, hl⟩ := hl
    rw [List.flatMap_cons]
    cases hfile : x.isFile with
    | true =>
      cases x with
      | file name =>
        have hL : L = .file name :: l := by
          rw [hL]
          have : (was || (Opt.file name :: l).any Opt.isFile) = true := by simp [Opt.isFile]
          rw [if_pos this]
        subst hL
        obtain ⟨k1, k2, k3⟩ := name_ok o name (hx.imp id And.left)
        have hl : LineOk E files s l := hl
        have step : ∀ i stdin', processFile E stdin name o.specs o.base64 = some (0, [i], stdin') →
            processArgs E ((Opt.file name).words ++ l.flatMap Opt.words) o stdin was out =
              processArgs E (l.flatMap Opt.words) o stdin' true (out ++ [i]) := by
          intro i stdin' hp
          show processArgs E (name :: l.flatMap Opt.words) o stdin was out = _
          conv_lhs => unfold processArgs
          simp only [k1, k2, k3, Bool.false_eq_true, if_false, hp, Option.bind_eq_bind, Option.bind_some, ne_eq, not_true_eq_false]
        by_cases hd : name = text "-"
        · have e : jobs files s stdin (.file name :: l) = ⟨s, stdin, name⟩ :: jobs files s [] l := by rw [jobs, if_pos hd]
          rw [e] at hj ⊢
          obtain ⟨h1, h2, h3⟩ := hj _ (List.mem_cons_self ..)
          obtain ⟨i, p1, p2⟩ := processFile_eq hE h h1 h2 stdin name stdin (by rw [if_pos hd]) h3
          rw [if_pos hd] at p1
          obtain ⟨items, q1, q2⟩ := ih o s [] true (out ++ [i]) l h hl (by simp) (fun j hj' => hj j (List.mem_cons_of_mem _ hj'))
          exact ⟨i :: items, by rw [step i [] p1, q1, List.append_assoc]; rfl, .cons p2 q2⟩
        · have e : jobs files s stdin (.file name :: l) = ⟨s, files name, name⟩ :: jobs files s stdin l := by rw [jobs, if_neg hd]
          rw [e] at hj ⊢
          obtain ⟨h1, h2, h3⟩ := hj _ (List.mem_cons_self ..)
          have hf : E.files name = some (files name) := by
            rcases hx with hx | hx
            · exact absurd hx hd
            · exact hx.2
          obtain ⟨i, p1, p2⟩ := processFile_eq hE h h1 h2 stdin name (files name) (by rw [if_neg hd]; exact hf) h3
          rw [if_neg hd] at p1
          obtain ⟨items, q1, q2⟩ := ih o s stdin true (out ++ [i]) l h hl (by simp) (fun j hj' => hj j (List.mem_cons_of_mem _ hj'))
          exact ⟨i :: items, by rw [step i stdin p1, q1, List.append_assoc]; rfl, .cons p2 q2⟩
      | _ => cases hfile
    | false =>
      have hL' : L = x :: (if was || l.any Opt.isFile then l else l ++ [.file (text "-")]) := by
        rw [hL, List.any_cons, hfile, Bool.false_or]
        split <;> rfl
      by_cases hs : ∃ t, x = .string t
      · obtain ⟨t, rfl⟩ := hs
        subst hL'
        rw [jobs] at hj ⊢
        obtain ⟨h1, h2, h3⟩ := hj _ (List.mem_cons_self ..)
        obtain ⟨i, p1, p2⟩ := processString_eq hE h h1 h2 t h3
        obtain ⟨items, q1, q2⟩ := ih o s stdin was (out ++ [i]) _ h hl rfl (fun j hj' => hj j (List.mem_cons_of_mem _ hj'))
        refine ⟨i :: items, ?_, .cons p2 q2⟩
        show processArgs E (text "--string" :: t :: l.flatMap Opt.words) o stdin was out = _
        have k1 : setOption o (text "--string") = none := rfl
        have k2 : kind (text "--string") = .string := rfl
        conv_lhs => unfold processArgs
        simp only [k1, k2, p1, Option.bind_eq_bind, Option.bind_some]
        rw [q1, List.append_assoc]
        rfl
      · obtain ⟨o', p1, p2⟩ := step_set (E := E) h x hx hfile (fun t e => hs ⟨t, e⟩)
        have e : ∀ l', jobs files s stdin (x :: l') = jobs files (x.apply s) stdin l' := by
          intro l'
          cases x with
          | file n => cases hfile
          | string t => exact absurd ⟨t, rfl⟩ hs
          | _ => rfl
        subst hL'
        rw [e] at hj ⊢
        obtain ⟨items, q1, q2⟩ := ih o' (x.apply s) stdin was out _ p2 hl rfl hj
        exact ⟨items, by rw [p1, q1], q2⟩

theorem rel_initial : Rel initial Spec.KeccakSum.default :=
  ⟨rfl, by decide, by decide, rfl, rfl, rfl, rfl, by decide, by decide, by decide⟩

end KeccakSum
