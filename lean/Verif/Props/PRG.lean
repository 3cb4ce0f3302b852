import Verif.Proofs.PRG
import Verif.Props.Duplex

/-!
# Properties of SpongePRG (C23, C24)
-/

namespace SpongePRG
open Duplex
open Spec.PRG (Op rho)

/-- A call to a function of `KeccakPRG.inc`: return code, instance, bytes written. -/
def exec (P : SnP) (i : DuplexInst) : Op → Option (Nat × DuplexInst × Bytes)
  | .feed x => (feed P i x).map fun y => (y.1, y.2, [])
  | .fetch n => fetch P i n
  | .forget => (forget P i).map fun y => (y.1, y.2, [])

/-- A sequence of calls: their return codes and outputs, and the final instance. -/
def execs (P : SnP) (i : DuplexInst) : List Op → Option (List (Nat × Bytes) × DuplexInst)
  | [] => some ([], i)
  | o :: os =>
    (exec P i o).bind fun y => (execs P y.2.1 os).map fun z => ((y.1, y.2.2) :: z.1, z.2)

variable {P : SnP}

theorem forget_refused (hw : P.width ≤ 2 ^ 20) {i : DuplexInst} (h : Inv P i)
    (hc : ¬ 8 * P.width - i.rate ≤ 8 * rho i.rate) : forget P i = some (1, i) := by
  have h1 := h.rate_ge; have h2 := h.rate_le
  have hrho : 8 * rho i.rate ≤ i.rate - 2 := by unfold rho; omega
  unfold forget
  rw [rhoInBytes_eq hw h]
  simp only
  rw [u32_eq (by omega), sub32_eq (by omega) (by omega), if_pos (by omega)]

section
variable {f : Bits → Bits} {s : Spec.Duplex.State} {i : DuplexInst} (hw : P.width ≤ 2 ^ 20) (hP : P.Valid)
  (hf : ∀ s : Bytes, s.length = P.width → f (Bits.ofBytes s) = Bits.ofBytes (P.permute s))
include hw hP hf

theorem exec_rep (h : GRep P f s i) (o : Op) :
    ∃ i' out, exec P i o = some ((Spec.PRG.step (8 * P.width) f i.rate s o).1, i', out) ∧
      GRep P f (Spec.PRG.step (8 * P.width) f i.rate s o).2.1 i' ∧ i'.rate = i.rate ∧
      Bits.ofBytes out = (Spec.PRG.step (8 * P.width) f i.rate s o).2.2 := by
  cases o with
  | feed x =>
    obtain ⟨i', h1, h2, h3⟩ := feed_rep hw hP hf h x
    refine ⟨i', [], ?_, h2, h3, rfl⟩
    show (feed P i x).map _ = _
    rw [h1]; rfl
  | fetch n => exact fetch_rep hw hP hf h n
  | forget =>
    simp only [Spec.PRG.step]
    by_cases hc : 8 * P.width - i.rate ≤ 8 * rho i.rate
    · rw [if_pos hc]
      obtain ⟨i', h1, h2, h3⟩ := forget_rep hw hP hf h hc
      refine ⟨i', [], ?_, h2, h3, rfl⟩
      show (forget P i).map _ = _
      rw [h1]; rfl
    · rw [if_neg hc]
      refine ⟨i, [], ?_, h, rfl, rfl⟩
      show (forget P i).map _ = _
      rw [forget_refused hw h.rep.inv hc]; rfl

theorem execs_run : ∀ (os : List Op) (s : Spec.Duplex.State) (i : DuplexInst), GRep P f s i →
    ∃ outs i', execs P i os = some (outs, i') ∧
      outs.map (fun y => (y.1, Bits.ofBytes y.2)) = Spec.PRG.run (8 * P.width) f i.rate s os
  | [], s, i, _ => ⟨[], i, rfl, rfl⟩
  | o :: os, s, i, h => by
    obtain ⟨i1, out, h1, h2, h3, h4⟩ := exec_rep hw hP hf h o
    obtain ⟨outs, i', h5, h6⟩ := execs_run os _ i1 h2
    rw [h3] at h6
    refine ⟨_ :: outs, i', by simp only [execs, h1, Option.bind_some, h5, Option.map_some]; rfl, ?_⟩
    simp only [List.map_cons, h6, Spec.PRG.run, h4]

end

theorem init_iff (hw : P.width ≤ 2 ^ 20) (hw2 : 2 ≤ P.width) (mem : DuplexInst) (capacity : BitVec 32) :
    ((prgInit P mem capacity).1 = 0 ↔ capacity.toNat + 10 ≤ 8 * P.width) ∧
    ((prgInit P mem capacity).1 ≠ 0 → prgInit P mem capacity = (1, mem)) ∧
    (∀ i, prgInit P mem capacity = (0, i) →
      ∃ rate : BitVec 32, rate.toNat = 8 * P.width - capacity.toNat ∧ duplexInit P mem rate capacity = (0, i)) := by
  have hwn : (BitVec.ofNat 32 (P.width * 8)).toNat = 8 * P.width := by
    rw [BitVec.toNat_ofNat, Nat.mod_eq_of_lt (by omega)]; omega
  have h10 : (BitVec.ofNat 32 (P.width * 8) - 10).toNat = 8 * P.width - 10 := by
    rw [BitVec.toNat_sub_of_le, hwn]
    · rfl
    · rw [BitVec.le_def, hwn]; show 10 ≤ _; omega
  unfold prgInit
  simp only
  have hlt : (BitVec.ofNat 32 (P.width * 8) - 10 < capacity) ↔ 8 * P.width - 10 < capacity.toNat := by
    rw [BitVec.lt_def, h10]
  by_cases hc : 8 * P.width - 10 < capacity.toNat
  · rw [if_pos (hlt.2 hc)]
    refine ⟨⟨fun h => by simp at h, fun h => by omega⟩, fun _ => rfl, ?_⟩
    intro i h; simp at h
  · rw [if_neg (fun h => hc (hlt.1 h))]
    have hr : (BitVec.ofNat 32 (P.width * 8) - capacity).toNat = 8 * P.width - capacity.toNat := by
      rw [BitVec.toNat_sub_of_le, hwn]
      rw [BitVec.le_def, hwn]; omega
    have hr2 : (BitVec.ofNat 32 (P.width * 8) - capacity - 2).toNat = 8 * P.width - capacity.toNat - 2 := by
      rw [BitVec.toNat_sub_of_le, hr]
      · rfl
      · rw [BitVec.le_def, hr]; show 2 ≤ _; omega
    rw [hr2, if_neg (by omega)]
    have hok := (Duplex.init_iff hw mem (BitVec.ofNat 32 (P.width * 8) - capacity) capacity)
    have h0 : (duplexInit P mem (BitVec.ofNat 32 (P.width * 8) - capacity) capacity).1 = 0 := by
      refine hok.1.2 ⟨?_, by rw [hr]; omega, by rw [hr]; omega⟩
      rw [BitVec.sub_add_cancel, hwn]
    exact ⟨⟨fun _ => by omega, fun _ => h0⟩, fun h => absurd h0 h, fun i hi => ⟨_, hr, hi⟩⟩

theorem init_rep (hw : P.width ≤ 2 ^ 20) (hw2 : 2 ≤ P.width) (f : Bits → Bits) (mem i : DuplexInst)
    (capacity : BitVec 32) (h0 : prgInit P mem capacity = (0, i)) :
    GRep P f (Spec.Duplex.start (8 * P.width - capacity.toNat)) i ∧ i.rate = 8 * P.width - capacity.toNat := by
  have hi := init_iff hw hw2 mem capacity
  have hc := hi.1.1 (by rw [h0])
  obtain ⟨rate, h1, h2⟩ := hi.2.2 i h0
  obtain ⟨h3, h4⟩ := Duplex.init_rep hw f mem rate capacity i h2
  rw [h1] at h3 h4
  have hpos : 0 < rho i.rate := by rw [h4]; unfold rho; omega
  refine ⟨⟨h3, hpos, by simpa [Spec.Duplex.start] using hpos, fun _ => rfl⟩, h4⟩

/-- **C23**, initialisation: exactly the capacities up to the width minus 10 are accepted. -/
theorem C23_init_iff (hw : P.width ≤ 2 ^ 20) (hw2 : 2 ≤ P.width) (mem : DuplexInst) (capacity : BitVec 32) :
    ((prgInit P mem capacity).1 = 0 ↔ capacity.toNat + 10 ≤ 8 * P.width) ∧
    ((prgInit P mem capacity).1 ≠ 0 → prgInit P mem capacity = (1, mem)) :=
  ⟨(init_iff hw hw2 mem capacity).1, (init_iff hw hw2 mem capacity).2.1⟩

/-- **C23**, and the last part of **C24**.  An initialised generator answers every sequence of operations (return
codes and output) as the byte-by-byte specification does, in particular without going out of bounds; every feed
and every fetch returns 0. -/
theorem C23_prg (hw : P.width ≤ 2 ^ 20) (hw2 : 2 ≤ P.width) (hP : P.Valid) (f : Bits → Bits)
    (hf : ∀ s : Bytes, s.length = P.width → f (Bits.ofBytes s) = Bits.ofBytes (P.permute s))
    (mem i : DuplexInst) (capacity : BitVec 32) (h0 : prgInit P mem capacity = (0, i)) (os : List Op) :
    ∃ outs i', execs P i os = some (outs, i') ∧
      outs.map (fun y => (y.1, Bits.ofBytes y.2)) =
        Spec.PRG.run (8 * P.width) f (8 * P.width - capacity.toNat)
          (Spec.Duplex.start (8 * P.width - capacity.toNat)) os := by
  obtain ⟨h1, h2⟩ := init_rep hw hw2 f mem i capacity h0
  obtain ⟨outs, i', h3, h4⟩ := execs_run hw hP hf os _ i h1
  rw [h2] at h4
  exact ⟨outs, i', h3, h4⟩

/-- The instances that some sequence of calls leads to from an initialised generator. -/
inductive Reach (P : SnP) : DuplexInst → Prop
  | init {mem i : DuplexInst} {capacity : BitVec 32} (h : prgInit P mem capacity = (0, i)) : Reach P i
  | call {i i' : DuplexInst} {o : Op} {e : Nat} {out : Bytes} (h : Reach P i)
      (hx : exec P i o = some (e, i', out)) : Reach P i'

theorem Reach.rep (hw : P.width ≤ 2 ^ 20) (hw2 : 2 ≤ P.width) (hP : P.Valid) {f : Bits → Bits}
    (hf : ∀ s : Bytes, s.length = P.width → f (Bits.ofBytes s) = Bits.ofBytes (P.permute s)) {i : DuplexInst}
    (h : Reach P i) : ∃ s, GRep P f s i := by
  induction h with
  | init h0 => exact ⟨_, (init_rep hw hw2 f _ _ _ h0).1⟩
  | call _ hx ih =>
    obtain ⟨s, hs⟩ := ih
    obtain ⟨i', out, h1, h2, -⟩ := exec_rep hw hP hf hs _
    rw [hx] at h1
    obtain ⟨-, rfl, -⟩ := (by simpa only [Option.some.injEq, Prod.mk.injEq] using h1 : _ ∧ _ ∧ _)
    exact ⟨_, h2⟩

/-- **C23**, feeding: in every reachable state, feeding two strings one after the other gives the same generator as
feeding their concatenation, and returns 0. -/
theorem C23_feed_append (hw : P.width ≤ 2 ^ 20) (hw2 : 2 ≤ P.width) (hP : P.Valid) {i : DuplexInst}
    (h : Reach P i) (x y : Bytes) :
    ∃ i1 i2, feed P i x = some (0, i1) ∧ feed P i1 y = some (0, i2) ∧ feed P i (x ++ y) = some (0, i2) := by
  obtain ⟨f, hf⟩ := exists_bitLevel P
  obtain ⟨s, hs⟩ := h.rep hw hw2 hP hf
  obtain ⟨i1, e1, r1, ra1⟩ := feed_rep hw hP hf hs x
  obtain ⟨i2, e2, r2, ra2⟩ := feed_rep hw hP hf r1 y
  obtain ⟨i3, e3, r3, ra3⟩ := feed_rep hw hP hf hs (x ++ y)
  have hout : ∀ (s : Spec.Duplex.State) (o : Nat) (y : Bytes),
      ({ y.foldl (Spec.PRG.feedByte i.rate) { s with out := o } with out := rho i.rate } : Spec.Duplex.State) =
        { y.foldl (Spec.PRG.feedByte i.rate) s with out := rho i.rate } := by
    intro s o y
    induction y generalizing s o with
    | nil => rfl
    | cons b y ih =>
      simp only [List.foldl_cons]
      unfold Spec.PRG.feedByte
      simp only
      split
      · rfl
      · exact ih { s with queue := s.queue ++ Bits.ofByte b } o
  have heq : Spec.PRG.feed i.rate s (x ++ y) = Spec.PRG.feed i1.rate (Spec.PRG.feed i.rate s x) y := by
    rw [ra1]
    unfold Spec.PRG.feed
    rw [List.foldl_append]
    exact (hout (x.foldl (Spec.PRG.feedByte i.rate) s) (rho i.rate) y).symm
  rw [heq] at r3
  have : i3 = i2 := rep_unique r3.rep r2.rep (by rw [ra3, ra2, ra1])
  exact ⟨i1, i2, e1, e2, this ▸ e3⟩

/-- **C23**, fetching: in every reachable state, fetching `m` and then `n` bytes gives the same generator and the
same bytes as fetching `m + n` bytes, and returns 0. -/
theorem C23_fetch_add (hw : P.width ≤ 2 ^ 20) (hw2 : 2 ≤ P.width) (hP : P.Valid) {i : DuplexInst}
    (h : Reach P i) (m n : Nat) :
    ∃ i1 i2 u v, fetch P i m = some (0, i1, u) ∧ fetch P i1 n = some (0, i2, v) ∧
      fetch P i (m + n) = some (0, i2, u ++ v) ∧ u.length = m ∧ v.length = n := by
  obtain ⟨f, hf⟩ := exists_bitLevel P
  obtain ⟨s, hs⟩ := h.rep hw hw2 hP hf
  obtain ⟨i1, u, e1, r1, ra1, o1⟩ := fetch_rep hw hP hf hs m
  obtain ⟨i2, v, e2, r2, ra2, o2⟩ := fetch_rep hw hP hf r1 n
  obtain ⟨i3, w, e3, r3, ra3, o3⟩ := fetch_rep hw hP hf hs (m + n)
  have hsplit := fetch_add (f := f) (8 * P.width) i.rate m n s
  rw [hsplit] at r3 o3
  rw [ra1] at r2 o2
  have hi : i3 = i2 := rep_unique r3.rep r2.rep (by rw [ra3, ra2, ra1])
  have ho : w = u ++ v := Bits.ofBytes_injective (by rw [o3, Bits.ofBytes_append, o1, o2])
  have hlen : ∀ (n : Nat) (s : Spec.Duplex.State) (i : DuplexInst), GRep P f s i →
      (Spec.PRG.fetch (8 * P.width) f i.rate s n).2.length = 8 * n := by
    intro n
    induction n with
    | zero => intros; rfl
    | succ n ih =>
      intro s i hs
      obtain ⟨i', w, e, r, ra, o⟩ := fetch_rep hw hP hf hs 1
      have h1 := hs.rep.rate_ge
      have hrho : 8 * rho i.rate ≤ i.rate - 2 := by unfold rho; omega
      have hpos := hs.rho_pos
      rw [show n + 1 = 1 + n by omega, fetch_add]
      have ih' := ih _ i' r
      rw [ra] at ih'
      simp only [List.length_append, ih']
      have : (Spec.PRG.fetch (8 * P.width) f i.rate s 1).2.length = 8 := by
        by_cases ho : s.out < rho i.rate
        · rw [fetch_within _ _ _ _ (by omega)]
          simp only [List.length_take, List.length_drop, length_block hP hf hs.rep]
          omega
        · obtain ⟨i1, e1, r1, ra1⟩ := dup_step hw hP hf hs.rep hpos
          rw [fetch_dup _ _ _ _ hpos (by omega) (by omega),
            fetch_within _ _ _ _ (by simp only [Spec.PRG.dup]; omega)]
          have := length_block hP hf r1
          rw [ra1] at this
          simp only [List.length_take, List.length_drop, this]
          simp only [Spec.PRG.dup]; omega
      omega
  have hu := congrArg List.length o1
  have hv := congrArg List.length o2
  rw [Bits.length_ofBytes, hlen m s i hs] at hu
  have hl2 := hlen n _ i1 r1
  rw [ra1] at hl2
  rw [Bits.length_ofBytes, hl2] at hv
  exact ⟨i1, i2, u, v, e1, e2, by rw [e3, hi, ho], by omega, by omega⟩

/-! ## C24 -/

theorem xorAt_append_right (a b d : Bytes) (off : Nat) (h : a.length ≤ off) :
    Bytes.xorAt (a ++ b) off d = a ++ Bytes.xorAt b (off - a.length) d := by
  apply List.ext_getElem?
  intro k
  rw [Bytes.getElem?_xorAt, List.getElem?_append, List.getElem?_append, Bytes.getElem?_xorAt]
  by_cases hk : k < a.length
  · simp only [hk, if_true]
    simp [show ¬ off ≤ k by omega]
  · simp only [hk, if_false]
    by_cases ho : off ≤ k
    · simp [ho, show off - a.length ≤ k - a.length by omega,
        show k - a.length - (off - a.length) = k - off by omega]
    · simp [ho, show ¬ off - a.length ≤ k - a.length by omega]

/-- **C24.**  `SpongePRG_Forget` succeeds iff a block has at least as many bits as the capacity; otherwise it
changes nothing.  When it succeeds, what is given to the last permutation is, in its first `ρ` bytes, zero
whatever the state was, and in the other bytes the state after the first duplexing call with the padding
added. -/
theorem C24_forget (hw : P.width ≤ 2 ^ 20) (hw2 : 2 ≤ P.width) (hP : P.Valid) {i : DuplexInst}
    (h : Reach P i) :
    (¬ 8 * P.width - i.rate ≤ 8 * rho i.rate → forget P i = some (1, i)) ∧
    (8 * P.width - i.rate ≤ 8 * rho i.rate → ∃ i1 i' s2, duplexing P i [] 0 0x01 = some (0, i1, []) ∧
      forget P i = some (0, i') ∧ i'.rate = i.rate ∧ i'.byteInputIndex = 0 ∧ i'.byteOutputIndex = rho i.rate ∧
      i'.state = P.permute s2 ∧ s2.length = P.width ∧ s2.take (rho i.rate) = Bytes.zeros (rho i.rate) ∧
      s2.drop (rho i.rate) = Bytes.xorAt (Bytes.xorAt (i1.state.drop (rho i.rate)) 0 [0x01])
        ((i.rate - 1) / 8 - rho i.rate) [1#8 <<< ((i.rate - 1) % 8)]) := by
  obtain ⟨f, hf⟩ := exists_bitLevel P
  obtain ⟨s, hs⟩ := h.rep hw hw2 hP hf
  refine ⟨forget_refused hw hs.rep.inv, fun hc => ?_⟩
  have h1 := hs.rep.rate_ge; have h2 := hs.rep.rate_le
  have hrho : 8 * rho i.rate ≤ i.rate - 2 := by unfold rho; omega
  obtain ⟨i1, e1, r1, ra1⟩ := dup_step hw hP hf hs.rep hs.rho_pos
  obtain ⟨i', e, r, ra⟩ := forget_rep hw hP hf hs hc
  have hin1 : i1.byteInputIndex = 0 := by
    have := r1.inIdx; simp only [Spec.PRG.dup, List.length_nil] at this; omega
  have hl1 : i1.state.length = P.width := r1.len
  -- the overwriting call
  have e2 : overwriteWithZeroes i1 (rho i.rate) =
      some (0, { i1 with state := Bytes.setAt i1.state 0 (Bytes.zeros (rho i.rate)),
                         byteInputIndex := rho i.rate }) := by
    unfold overwriteWithZeroes
    rw [rhoMax_eq hw r1.inv, ra1, if_neg (by omega), u32_eq (by omega), if_neg (by omega)]
    simp only [SnP.overwriteWithZeroes]
    rw [if_pos (by omega)]
    rfl
  obtain ⟨i2, e2', r2, ra2⟩ := overwriteZeroes_step hw hP hf r1 (rho i.rate) (by omega)
  rw [e2] at e2'
  simp only [Option.some.injEq, Prod.mk.injEq] at e2'
  obtain ⟨-, hi2⟩ := e2'
  have hinv2 := r2.inv
  obtain ⟨i3, e3, r3, ra3⟩ := dup_step hw hP hf r2 (by rw [ra2, ra1]; exact hs.rho_pos)
  rcases duplexing_cases e3 with ⟨-, h, -⟩ | ⟨-, -, s2, s1, s0, a0, a1, a2, hi3⟩
  · simp at h
  simp only [SnP.addBytes] at a0
  split at a0
  swap
  · simp at a0
  simp only [Option.some.injEq, Bytes.xorAt_nil] at a0
  simp only [SnP.addByte] at a1
  split at a1
  swap
  · simp at a1
  simp only [SnP.addByte] at a2
  split at a2
  swap
  · simp at a2
  simp only [Option.some.injEq] at a1 a2
  rw [ra2, ra1, sub32_eq (by omega) (by omega)] at a2
  have hst2 : i2.state = Bytes.setAt i1.state 0 (Bytes.zeros (rho i.rate)) := by rw [← hi2]
  have hin2 : i2.byteInputIndex = rho i.rate := by rw [← hi2]
  rw [hin2, List.length_nil, Nat.add_zero, u32_eq (by omega)] at a1
  rw [hst2] at a0
  have hform : s2 = Bytes.xorAt (Bytes.xorAt (Bytes.setAt i1.state 0 (Bytes.zeros (rho i.rate))) (rho i.rate) [0x01])
      ((i.rate - 1) / 8) [1#8 <<< ((i.rate - 1) % 8)] := by rw [← a2, ← a1, ← a0]
  have hge : rho i.rate ≤ (i.rate - 1) / 8 := by unfold rho; omega
  have hset : Bytes.setAt i1.state 0 (Bytes.zeros (rho i.rate)) =
      Bytes.zeros (rho i.rate) ++ i1.state.drop (rho i.rate) := by
    apply List.ext_getElem?
    intro k
    rw [Bytes.getElem?_setAt, List.getElem?_append, Bytes.length_zeros, List.getElem?_drop]
    by_cases hk : k < rho i.rate
    · have hk' : k < i1.state.length := by omega
      simp [hk, hk', Bytes.zeros]
    · have e : rho i.rate + (k - rho i.rate) = k := by omega
      simp [hk, e]
  have hzl : (Bytes.zeros (rho i.rate)).length = rho i.rate := Bytes.length_zeros _
  have hsplit : s2 = Bytes.zeros (rho i.rate) ++ Bytes.xorAt (Bytes.xorAt (i1.state.drop (rho i.rate)) 0 [0x01])
      ((i.rate - 1) / 8 - rho i.rate) [1#8 <<< ((i.rate - 1) % 8)] := by
    rw [hform, hset]
    rw [xorAt_append_right _ _ _ _ (by omega), xorAt_append_right _ _ _ _ (by omega), hzl, Nat.sub_self]
  have hs2l : s2.length = P.width := by rw [hform]; simp [Bytes.length_setAt, hl1]
  have hfor : forget P i = some (0, { i3 with byteOutputIndex := rho i.rate }) := by
    unfold forget
    rw [rhoInBytes_eq hw hs.rep.inv]
    simp only
    rw [u32_eq (by omega), sub32_eq (by omega) (by omega), if_neg (by omega), e1]
    simp only [Option.bind_eq_bind, Option.bind_some]
    rw [e2, hi2]
    simp only [Option.bind_some, e3]
    simp
  refine ⟨i1, _, s2, e1, hfor, ?_, ?_, rfl, ?_, hs2l, ?_, ?_⟩
  · simp only [ra3, ra2, ra1]
  · rw [hi3]
  · rw [hi3]
  · rw [hsplit, List.take_left' hzl]
  · rw [hsplit, List.drop_left' hzl]

/-- **C24**, consequence: after a successful `Forget`, nothing is left of the first `ρ` bytes: two generators whose
states after the first duplexing call agree from byte `ρ` on are afterwards identical. -/
theorem C24_forget_erases (hw : P.width ≤ 2 ^ 20) (hw2 : 2 ≤ P.width) (hP : P.Valid) {i j i1 j1 : DuplexInst}
    (hi : Reach P i) (hj : Reach P j) (hr : i.rate = j.rate) (hc : 8 * P.width - i.rate ≤ 8 * rho i.rate)
    (e1 : duplexing P i [] 0 0x01 = some (0, i1, [])) (e2 : duplexing P j [] 0 0x01 = some (0, j1, []))
    (heq : i1.state.drop (rho i.rate) = j1.state.drop (rho i.rate)) : forget P i = forget P j := by
  obtain ⟨i1', i', s2, a1, a2, a3, a4, a5, a6, a7, a8, a9⟩ := (C24_forget hw hw2 hP hi).2 hc
  obtain ⟨j1', j', t2, b1, b2, b3, b4, b5, b6, b7, b8, b9⟩ := (C24_forget hw hw2 hP hj).2 (hr ▸ hc)
  rw [e1] at a1
  rw [e2] at b1
  simp only [Option.some.injEq, Prod.mk.injEq, true_and, and_true] at a1 b1
  subst a1 b1
  rw [← hr] at b8 b9 b5
  rw [heq] at a9
  have hst : s2 = t2 := by
    rw [← List.take_append_drop (rho i.rate) s2, ← List.take_append_drop (rho i.rate) t2, a8, b8, a9, b9]
  rw [a2, b2]
  cases i'; cases j'
  simp only at a3 a4 a5 a6 b3 b4 b5 b6
  rw [a3, a4, a5, a6, b3, b4, b5, b6, hst, hr]

-- hypotheses met: a generator with capacity 40 on the 200-bit toy permutation; `Forget` is accepted there, and
-- refused with capacity 120
example : ∃ i, Reach Toy.snp i ∧ 8 * Toy.snp.width - i.rate ≤ 8 * rho i.rate :=
  ⟨_, Reach.init (mem := ⟨[], 0, 0, 0⟩) (capacity := 40) rfl, by decide⟩

example : ∃ i, Reach Toy.snp i ∧ ¬ 8 * Toy.snp.width - i.rate ≤ 8 * rho i.rate :=
  ⟨_, Reach.init (mem := ⟨[], 0, 0, 0⟩) (capacity := 120) rfl, by decide⟩

end SpongePRG
