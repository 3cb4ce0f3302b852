import Verif.Proofs.FarfalleSession
import Verif.Props.KeccakPOpt
import Verif.Props.Xoodoo

/-!
# Properties C29, C30 and C31: Kravatte and Xoofff

`C : Cfg` is one of the two implementations (`Kravatte.c` or `Xoofff.c`) with any permutation and any list of parallel paths
that meet `Valid`; `P` is the instance of Farfalle in the specification, and `Matches C P` says that the permutation and the
roll functions of the code are those of `P`.  Both hold for the code as configured (`kravatte_ok`, `xoofff_ok` below).
-/

namespace Farfalle

variable {C : Cfg} {P : Spec.Farfalle.Par}

/-- The calls that give a string in pieces: whole bytes `pieces`, then the first `n` bits of `tail`. -/
def inputCalls (pieces : List Bytes) (tail : Bytes) (n : Nat) : List Call :=
  pieces.map (fun d => .compress d (8 * d.length) {}) ++ [.compress tail n { last := true }]

/-- The string that `inputCalls` gives. -/
def inputBits (pieces : List Bytes) (tail : Bytes) (n : Nat) : Bits := Bits.ofBytes pieces.flatten ++ (Bits.ofBytes tail).take n

/-- The calls that ask for output in pieces: whole bytes `ms`, then `n` bits. -/
def outputCalls (ms : List Nat) (n : Nat) (short : Bool) : List Call :=
  ms.map (fun m => .expand (8 * m) { short := short }) ++ [.expand n { last := true, short := short }]

theorem inputCalls_eq (hC : Valid C) (tail : Bytes) (n : Nat) (b : Byte) (hn : (n + 7) / 8 ≤ tail.length)
    (hb : padByte (tail.drop (n / 8)) (n % 8) = some b) (st : Bytes × Bytes) : ∀ (pieces : List Bytes) (kv : Inst) (r : Bytes),
    Sized C kv → kv.phase = .compressing → (kv.kRoll, kv.xAccu) = eat C (r.length / C.width) st r →
    Pend C kv (r.drop (r.length / C.width * C.width)) →
    ∃ kv', run C kv (inputCalls pieces tail n) = some (kv', List.replicate (pieces.length + 1) (0, [])) ∧ Sized C kv' ∧
      Frame kv kv' ∧ (kv'.kRoll, kv'.xAccu) = finish C st (r ++ (pieces.flatten ++ tail.take (n / 8))) b ∧
      kv'.queueOffset = 0 := by
  intro pieces
  induction pieces with
  | nil =>
    intro kv r hs hph he hp
    obtain ⟨kv', g1, g2, g3, g4, g5⟩ := compress_true hC kv hs hph _ hp tail n b (by omega) hb false
    refine ⟨kv', ?_, g2, g3, ?_, by simpa using g5.offset⟩
    · simp only [inputCalls, List.map_nil, List.nil_append, run, Call.exec, Option.bind_eq_bind]
      rw [g1]; rfl
    · rw [g4, he, finish_append hC]; rfl
  | cons d ds ih =>
    intro kv r hs hph he hp
    obtain ⟨kv1, g1, g2, g3, g4, g5⟩ := compress_false hC kv hs hph _ hp d d.length (Nat.le_refl _) false
    rw [List.take_length, he, eat_append hC] at g4
    rw [List.take_length, tail_append hC] at g5
    obtain ⟨kv', k1, k2, k3, k4, k5⟩ := ih kv1 (r ++ d) g2 (g3.phase.trans hph) g4 g5
    refine ⟨kv', ?_, k2, ⟨k3.k.trans g3.k, k3.yAccu.trans g3.yAccu, k3.phase.trans g3.phase⟩, ?_, k5⟩
    · simp only [inputCalls, List.map_cons, List.cons_append, run, Call.exec, Option.bind_eq_bind]
      rw [g1]
      simp only [Option.map_some, Option.bind_some]
      rw [show List.map _ ds ++ _ = inputCalls ds tail n from rfl, k1]
      rfl
    · rw [k4, List.append_assoc, List.flatten_cons, List.append_assoc]

/-- C29: a string given in any pieces (whole bytes, then any number of bits) to an instance between two strings is
accumulated as the blocks of the padded string, each with its own mask; the mask then advances by the number of blocks plus
one.  The parallel paths of `C` do not occur on the right hand sides. -/
theorem C29 (hC : Valid C) (hM : Matches C P) (kv : Inst) (hs : Sized C kv) (hph : kv.phase = .compressing)
    (h0 : kv.queueOffset = 0) (pieces : List Bytes) (tail : Bytes) (n : Nat) (hn : (n + 7) / 8 ≤ tail.length)
    (hc : Clean tail n) :
    ∃ kv', run C kv (inputCalls pieces tail n) = some (kv', List.replicate (pieces.length + 1) (0, [])) ∧
      Bits.ofBytes kv'.xAccu = Spec.Farfalle.accumulate P (Bits.ofBytes kv.kRoll) (Bits.ofBytes kv.xAccu) 0
        (Spec.blocks P.b (Spec.Farfalle.pad P.b (inputBits pieces tail n))) ∧
      Bits.ofBytes kv'.kRoll = Nat.repeat P.rollc
        ((Spec.blocks P.b (Spec.Farfalle.pad P.b (inputBits pieces tail n))).length + 1) (Bits.ofBytes kv.kRoll) ∧
      kv'.k = kv.k ∧ kv'.phase = .compressing ∧ kv'.queueOffset = 0 := by
  obtain ⟨b, l, hb, hd, hl⟩ := padByte_spec tail n hn hc
  obtain ⟨kv', g1, g2, g3, g4, g5⟩ := inputCalls_eq hC tail n b hn hb (kv.kRoll, kv.xAccu) pieces kv [] hs hph (by simp [eat])
    (by rw [List.drop_nil]; exact Pend.nil hC h0)
  have hr : ∀ r : Bytes, finish C (kv.kRoll, kv.xAccu) r b = (kv'.kRoll, kv'.xAccu) → inputBits pieces tail n = Bits.ofBytes r ++ l →
      Bits.ofBytes kv'.xAccu = Spec.Farfalle.accumulate P (Bits.ofBytes kv.kRoll) (Bits.ofBytes kv.xAccu) 0
        (Spec.blocks P.b (Spec.Farfalle.pad P.b (inputBits pieces tail n))) ∧
      Bits.ofBytes kv'.kRoll = Nat.repeat P.rollc
        ((Spec.blocks P.b (Spec.Farfalle.pad P.b (inputBits pieces tail n))).length + 1) (Bits.ofBytes kv.kRoll) := by
    intro r hf hi
    have hp := length_padded hC r b
    have hw := hC.width_pos
    rw [finish_eat hC] at hf
    obtain ⟨hf1, hf2⟩ := Prod.mk.inj hf
    rw [hi]
    constructor
    · rw [← hf2, pad_spec hC hM r l b hd]
      exact eat_spec hC hM kv.kRoll hs.kRoll _ 0 kv.xAccu _ hs.xAccu hp
    · rw [← hf1, length_blocks, pad_spec hC hM r l b hd, Bits.length_ofBytes, hp, hM.b, ← Nat.mul_assoc, Nat.mul_comm 8,
        Nat.mul_assoc, Nat.mul_div_cancel _ (by omega), eat_fst]
      exact ofBytes_repeat hC.rollc_ok.len hM.rollc (r.length / C.width + 1 + 1) hs.kRoll
  obtain ⟨h1, h2⟩ := hr _ (by rw [g4, List.nil_append]) (by rw [inputBits, hl, ← List.append_assoc, ← Bits.ofBytes_append])
  exact ⟨kv', g1, h1, h2, g3.k, g3.phase.trans hph, g5⟩

/-- C29: two ways of giving the same string to the same instance, with different pieces and different parallel paths (`C` and
`C'` may be any two configurations for the same `P`), leave the same mask and the same accumulator. -/
theorem C29_independent {C' : Cfg} (hC : Valid C) (hM : Matches C P) (hC' : Valid C') (hM' : Matches C' P) (kv : Inst)
    (hs : Sized C kv) (hph : kv.phase = .compressing) (h0 : kv.queueOffset = 0) (pieces pieces' : List Bytes)
    (tail tail' : Bytes) (n n' : Nat) (hn : (n + 7) / 8 ≤ tail.length) (hn' : (n' + 7) / 8 ≤ tail'.length)
    (hc : Clean tail n) (hc' : Clean tail' n') (h : inputBits pieces tail n = inputBits pieces' tail' n') :
    ∃ kv₁ kv₂ os₁ os₂, run C kv (inputCalls pieces tail n) = some (kv₁, os₁) ∧
      run C' kv (inputCalls pieces' tail' n') = some (kv₂, os₂) ∧ kv₁.xAccu = kv₂.xAccu ∧ kv₁.kRoll = kv₂.kRoll ∧
      kv₁.k = kv₂.k ∧ kv₁.phase = kv₂.phase ∧ kv₁.queueOffset = kv₂.queueOffset := by
  have hww : C.width = C'.width := by have := hM.b; have := hM'.b; omega
  obtain ⟨kv₁, g1, g2, g3, g4, g5, g6⟩ := C29 hC hM kv hs hph h0 pieces tail n hn hc
  obtain ⟨kv₂, k1, k2, k3, k4, k5, k6⟩ := C29 hC' hM' kv ⟨hww ▸ hs.k, hww ▸ hs.kRoll, hww ▸ hs.xAccu, hww ▸ hs.yAccu, hww ▸ hs.queue⟩
    hph h0 pieces' tail' n' hn' hc'
  refine ⟨kv₁, kv₂, _, _, g1, k1, Bits.ofBytes_injective ?_, Bits.ofBytes_injective ?_, g4.trans k4.symm, g5.trans k5.symm,
    g6.trans k6.symm⟩
  · rw [g2, k2, h]
  · rw [g3, k3, h]

theorem stream_add (P : Spec.Farfalle.Par) (k y : Bits) (q a b : Nat) :
    Spec.Farfalle.stream P k y q (a + b) = Spec.Farfalle.stream P k y q a ++ Spec.Farfalle.stream P k y (q + a) b := by
  unfold Spec.Farfalle.stream
  rw [List.range_add, List.map_append, List.map_map]
  congr 1
  apply List.map_congr_left
  intro t _
  simp only [Function.comp_apply, Nat.add_assoc]

theorem outputCalls_eq (hC : Valid C) (hM : Matches C P) (n : Nat) (hn : n + 7 < 2 ^ 64) (short : Bool) (y0 : Bytes)
    (hy0 : y0.length = C.width) : ∀ (ms : List Nat) (kv : Inst) (p : Nat), (∀ m ∈ ms, 8 * m + 7 < 2 ^ 64) → Sized C kv →
    Exp C kv y0 p →
    ∃ kv' os, run C kv (outputCalls ms n short) = some (kv', os) ∧ (∀ o ∈ os, o.1 = 0) ∧ EFrame kv kv' ∧ kv'.phase = .expanded ∧
      Holds (os.flatMap (·.2)) (Spec.Farfalle.stream P (Bits.ofBytes kv.kRoll) (Bits.ofBytes y0) (8 * p) (8 * ms.sum + n)) := by
  intro ms
  induction ms with
  | nil =>
    intro kv p _ hs he
    obtain ⟨kv', o, g0, g1, g2, g3, g4⟩ := expand_true hC kv hs y0 hy0 p he n hn false short
    refine ⟨kv', [(0, o)], ?_, by simp, g3, g4, ?_⟩
    · simp only [outputCalls, List.map_nil, List.nil_append, run, Call.exec, Option.bind_eq_bind]
      rw [g1]; rfl
    · rw [Holds, length_stream]
      simp only [List.flatMap_cons, List.flatMap_nil, List.append_nil, List.sum_nil, Nat.mul_zero, Nat.zero_add]
      rw [maskLast_spec (length_cut hC hs.kRoll hy0 _ _) g0, cut_spec hC hM hs.kRoll hy0 p _ n (by omega),
        show 8 * ((n + 7) / 8) - n = (8 - n % 8) % 8 by omega]
  | cons m ms ih =>
    intro kv p hms hs he
    obtain ⟨kv1, g1, g2, g3, g4⟩ := expand_false hC kv hs y0 hy0 p he m (hms m List.mem_cons_self) false short
    obtain ⟨kv', os, k1, k2, k3, k4, k5⟩ := ih kv1 (p + m) (fun m h => hms m (List.mem_cons_of_mem _ h)) g2 g4
    refine ⟨kv', (0, cut C kv.kRoll y0 p m) :: os, ?_, ?_, ⟨k3.k.trans g3.k, k3.kRoll.trans g3.kRoll, k3.xAccu.trans g3.xAccu⟩,
      k4, ?_⟩
    · simp only [outputCalls, List.map_cons, List.cons_append, run, Call.exec, Option.bind_eq_bind]
      rw [g1]
      simp only [Option.bind_some]
      rw [show List.map _ ms ++ _ = outputCalls ms n short from rfl, k1]
      rfl
    · intro o ho
      rcases List.mem_cons.mp ho with rfl | h
      · rfl
      · exact k2 o h
    · rw [Holds, length_stream] at k5 ⊢
      have hc := cut_spec hC hM hs.kRoll hy0 p m (8 * m) (Nat.le_refl _)
      rw [List.take_of_length_le (by rw [Bits.length_ofBytes, length_cut hC hs.kRoll hy0])] at hc
      rw [List.flatMap_cons, Bits.ofBytes_append, k5, hc, g3.kRoll, List.sum_cons,
        show 8 * (m + ms.sum) + n = 8 * m + (8 * ms.sum + n) by omega,
        stream_add P _ _ (8 * p) (8 * m) (8 * ms.sum + n), List.append_assoc,
        show 8 * (p + m) = 8 * p + 8 * m by omega,
        show (8 - (8 * ms.sum + n) % 8) % 8 = (8 - (8 * m + (8 * ms.sum + n)) % 8) % 8 by omega]

/-- C30: output asked for in any pieces (whole bytes, then any number of bits) from an instance between two strings is the
output stream of Farfalle for the accumulator and the mask of that instance.  The parallel paths of `C` do not occur in
it. -/
theorem C30 (hC : Valid C) (hM : Matches C P) (kv : Inst) (hs : Sized C kv) (hph : kv.phase = .compressing)
    (h0 : kv.queueOffset = 0) (ms : List Nat) (n : Nat) (hms : ∀ m ∈ ms, 8 * m + 7 < 2 ^ 64) (hn : n + 7 < 2 ^ 64) (short : Bool) :
    ∃ kv' os, run C kv (outputCalls ms n short) = some (kv', os) ∧ (∀ o ∈ os, o.1 = 0) ∧
      Holds (os.flatMap (·.2)) (Spec.Farfalle.stream P (Bits.ofBytes kv.kRoll)
        (if short then Bits.ofBytes kv.xAccu else P.pd (Bits.ofBytes kv.xAccu)) 0 (8 * ms.sum + n)) ∧
      kv'.k = kv.k ∧ kv'.kRoll = kv.kRoll ∧ kv'.xAccu = kv.xAccu ∧ kv'.phase = .expanded := by
  have hyl : (if short then kv.xAccu else C.permute kv.xAccu).length = C.width := by
    split
    · exact hs.xAccu
    · exact hC.permute_len _ hs.xAccu
  have hy : Bits.ofBytes (if short then kv.xAccu else C.permute kv.xAccu) =
      if short then Bits.ofBytes kv.xAccu else P.pd (Bits.ofBytes kv.xAccu) := by
    cases short
    · exact hM.pd _ hs.xAccu
    · rfl
  have hrun : run C kv (outputCalls ms n short) = run C { kv with
      yAccu := (if short then kv.xAccu else C.permute kv.xAccu), phase := .expanding } (outputCalls ms n short) := by
    cases ms with
    | nil =>
      have h1 := expand_start hC kv hs hph h0 n { last := true, short := short }
      rw [or_iff_left (by simp)] at h1
      simp only [outputCalls, List.map_nil, List.nil_append, run, Call.exec]
      rw [h1]
    | cons m ms =>
      have h1 := expand_start hC kv hs hph h0 (8 * m) { short := short }
      rw [or_iff_left (by rintro ⟨_, h⟩; omega)] at h1
      simp only [outputCalls, List.map_cons, List.cons_append, run, Call.exec]
      rw [h1]
  obtain ⟨kv', os, g1, g2, g3, g4, g5⟩ := outputCalls_eq hC hM n hn short _ hyl ms { kv with
      yAccu := (if short then kv.xAccu else C.permute kv.xAccu), phase := .expanding } 0 hms
    ⟨hs.k, hs.kRoll, hs.xAccu, hyl, hs.queue⟩ ⟨rfl, by simp [nblk]; rfl, by simp [h0], by simp⟩
  refine ⟨kv', os, hrun.trans g1, g2, ?_, g3.k, g3.kRoll, g3.xAccu, g4⟩
  rw [hy] at g5
  exact g5

/-- C30: two ways of asking for the same number of bits, with different pieces and different parallel paths, give the same
bytes. -/
theorem C30_independent {C' : Cfg} (hC : Valid C) (hM : Matches C P) (hC' : Valid C') (hM' : Matches C' P) (kv : Inst)
    (hs : Sized C kv) (hph : kv.phase = .compressing) (h0 : kv.queueOffset = 0) (ms ms' : List Nat) (n n' : Nat)
    (hms : ∀ m ∈ ms, 8 * m + 7 < 2 ^ 64) (hms' : ∀ m ∈ ms', 8 * m + 7 < 2 ^ 64) (hn : n + 7 < 2 ^ 64) (hn' : n' + 7 < 2 ^ 64)
    (short : Bool) (h : 8 * ms.sum + n = 8 * ms'.sum + n') :
    ∃ kv₁ kv₂ os₁ os₂, run C kv (outputCalls ms n short) = some (kv₁, os₁) ∧
      run C' kv (outputCalls ms' n' short) = some (kv₂, os₂) ∧ os₁.flatMap (·.2) = os₂.flatMap (·.2) := by
  have hww : C.width = C'.width := by have := hM.b; have := hM'.b; omega
  obtain ⟨kv₁, os₁, g1, g2, g3, _⟩ := C30 hC hM kv hs hph h0 ms n hms hn short
  obtain ⟨kv₂, os₂, k1, k2, k3, _⟩ := C30 hC' hM' kv
    ⟨hww ▸ hs.k, hww ▸ hs.kRoll, hww ▸ hs.xAccu, hww ▸ hs.yAccu, hww ▸ hs.queue⟩ hph h0 ms' n' hms' hn' short
  refine ⟨kv₁, kv₂, os₁, os₂, g1, k1, Bits.ofBytes_injective ?_⟩
  rw [Holds] at g3 k3
  rw [g3, k3, h]

/-- C31: after the derivation of the mask, any sequence of calls returns the codes and writes the output bits that the object
of the specification returns (`Obj`: the strings so far and the position in the output); `Holds` says that the unused bits of
the last byte written are 0.  In the specification the output is bits `pos .. pos + n - 1` of Farfalle of the sequence of
strings. -/
theorem C31 (hC : Valid C) (hM : Matches C P) (kv : Inst) (hs : Sized C kv) (key : Bytes) (n : Nat)
    (hk : (n + 7) / 8 ≤ key.length) (hn : n < P.b) (cs : List Call) (hcs : ∀ c ∈ cs, c.Ok) (S : Spec.Farfalle.Obj)
    (ls : List (Nat × Bits))
    (hspec : (Spec.Farfalle.Obj.start P ((Bits.ofBytes key).take n)).run P (cs.map Call.op) = some (S, ls)) :
    ∃ kv₀ kv' os, maskDerivation C kv key n = some (0, kv₀) ∧ run C kv₀ cs = some (kv', os) ∧
      List.Forall₂ (fun o l => o.1 = l.1 ∧ Holds o.2 l.2) os ls := by
  obtain ⟨kv₀, g1, g2⟩ := maskDerivation_spec hC hM kv hs key n hk hn
  obtain ⟨kv', os, k1, k2, k3⟩ := Rep.run hC hM cs g2 hcs hspec
  exact ⟨kv₀, kv', os, g1, k1, k3⟩

/-- A key that does not fit is refused, and the instance is not modified. -/
theorem C31_key (hM : Matches C P) (kv : Inst) (key : Bytes) (n : Nat) (hn : P.b ≤ n) :
    maskDerivation C kv key n = some (1, kv) := by
  have := hM.b
  unfold maskDerivation
  rw [if_pos (by omega)]

theorem run_append (P : Spec.Farfalle.Par) (a b : List Spec.Farfalle.Op) : ∀ S : Spec.Farfalle.Obj,
    S.run P (a ++ b) = (S.run P a).bind fun r => (r.1.run P b).map fun t => (t.1, r.2 ++ t.2) := by
  induction a with
  | nil => intro S; simp only [List.nil_append, Spec.Farfalle.Obj.run, Option.bind_some]; cases S.run P b <;> rfl
  | cons op ops ih =>
    intro S
    rw [List.cons_append, Spec.Farfalle.Obj.run, Spec.Farfalle.Obj.run]
    cases S.step P op with
    | none => rfl
    | some r =>
      obtain ⟨c, S1, o⟩ := r
      dsimp only
      rw [ih]
      cases S1.run P ops with
      | none => rfl
      | some r =>
        obtain ⟨S2, os⟩ := r
        simp only [Option.bind_some]
        cases S2.run P b <;> rfl

theorem run_strings (P : Spec.Farfalle.Par) (Ms : List Bits) : ∀ S : Spec.Farfalle.Obj, S.mode = .input → S.cur = [] →
    S.run P (Ms.map fun M => .compress M false true) =
      some ({ S with done := S.done ++ Ms }, List.replicate Ms.length (0, [])) := by
  induction Ms with
  | nil => intro S _ _; simp [Spec.Farfalle.Obj.run]
  | cons M Ms ih =>
    intro S hm hc
    rw [List.map_cons, Spec.Farfalle.Obj.run]
    simp only [Spec.Farfalle.Obj.step, Spec.Farfalle.Obj.compress, Bool.true_eq_false, false_and, if_false, Bool.false_eq_true, if_true]
    rw [ih _ rfl rfl, hc]
    obtain ⟨k, done, cur, mode⟩ := S
    dsimp only at hm hc
    subst hm hc
    simp [List.replicate_succ]

theorem forall₂_append_right {α β : Type} {R : α → β → Prop} {os : List α} {a b : List β} (h : List.Forall₂ R os (a ++ b)) :
    ∃ os₁ os₂, os = os₁ ++ os₂ ∧ List.Forall₂ R os₁ a ∧ List.Forall₂ R os₂ b := by
  induction a generalizing os with
  | nil => exact ⟨[], os, rfl, .nil, h⟩
  | cons x a ih =>
    cases h with
    | cons h1 h2 =>
      obtain ⟨os₁, os₂, rfl, g1, g2⟩ := ih h2
      exact ⟨_ :: os₁, os₂, rfl, .cons h1 g1, g2⟩

/-- C31 for the usual sequence of calls: the strings `Ms`, each in a single call, then `q` bytes of output and `n` more bits.
The second output is bits `8 q .. 8 q + n - 1` of Farfalle of the strings. -/
theorem C31_farfalle (hC : Valid C) (hM : Matches C P) (kv : Inst) (hs : Sized C kv) (key : Bytes) (keyLen : Nat)
    (hk : (keyLen + 7) / 8 ≤ key.length) (hkl : keyLen < P.b) (strings : List (Bytes × Nat))
    (hst : ∀ s ∈ strings, (s.2 + 7) / 8 ≤ s.1.length ∧ Clean s.1 s.2) (q n : Nat) (hq : 8 * q + 7 < 2 ^ 64) (hn : n + 7 < 2 ^ 64)
    (short : Bool) :
    ∃ kv₀ kv' o₁ o₂, maskDerivation C kv key keyLen = some (0, kv₀) ∧
      run C kv₀ (strings.map (fun s => .compress s.1 s.2 { last := true }) ++
        [.expand (8 * q) { short := short }, .expand n { last := true, short := short }]) =
        some (kv', List.replicate strings.length (0, []) ++ [(0, o₁), (0, o₂)]) ∧
      Holds o₁ (Spec.Farfalle.farfalle (if short then P.short else P) ((Bits.ofBytes key).take keyLen)
        (strings.map fun s => (Bits.ofBytes s.1).take s.2) 0 (8 * q)) ∧
      Holds o₂ (Spec.Farfalle.farfalle (if short then P.short else P) ((Bits.ofBytes key).take keyLen)
        (strings.map fun s => (Bits.ofBytes s.1).take s.2) (8 * q) n) := by
  have hmask : ∀ K, Spec.Farfalle.mask (if short then P.short else P) K = Spec.Farfalle.mask P K := by
    intro K; cases short <;> rfl
  obtain ⟨kv₀, g1, g2⟩ := maskDerivation_spec hC hM kv hs key keyLen hk hkl
  obtain ⟨kv', os, k1, k2, k3⟩ := Rep.run hC hM
    (strings.map (fun s => .compress s.1 s.2 { last := true }) ++
      [.expand (8 * q) { short := short }, .expand n { last := true, short := short }])
    (S' := ⟨Spec.Farfalle.mask P ((Bits.ofBytes key).take keyLen), strings.map fun s => (Bits.ofBytes s.1).take s.2, [], .finished⟩)
    (ls := List.replicate strings.length (0, []) ++
      [(0, Spec.Farfalle.farfalle (if short then P.short else P) ((Bits.ofBytes key).take keyLen)
        (strings.map fun s => (Bits.ofBytes s.1).take s.2) 0 (8 * q)),
       (0, Spec.Farfalle.farfalle (if short then P.short else P) ((Bits.ofBytes key).take keyLen)
        (strings.map fun s => (Bits.ofBytes s.1).take s.2) (8 * q) n)]) g2
    (by
      intro c hc
      rcases List.mem_append.mp hc with h | h
      · obtain ⟨s, hs, rfl⟩ := List.mem_map.mp h
        exact ⟨(hst s hs).1, fun _ => (hst s hs).2⟩
      · simp only [List.mem_cons, List.not_mem_nil, or_false] at h
        rcases h with rfl | rfl
        · exact hq
        · exact hn)
    (by
      rw [List.map_append, run_append, List.map_map]
      have := run_strings P (strings.map fun s => (Bits.ofBytes s.1).take s.2)
        (Spec.Farfalle.Obj.start P ((Bits.ofBytes key).take keyLen)) rfl rfl
      rw [List.map_map] at this
      rw [show (Call.op ∘ fun s : Bytes × Nat => Call.compress s.1 s.2 { last := true }) =
        ((fun M => Spec.Farfalle.Op.compress M false true) ∘ fun s : Bytes × Nat => (Bits.ofBytes s.1).take s.2) from rfl, this]
      simp [Spec.Farfalle.Obj.run, Spec.Farfalle.Obj.step, Spec.Farfalle.Obj.expand, Spec.Farfalle.Obj.start, Call.op,
        Spec.Farfalle.farfalle, hmask])
  obtain ⟨os₁, os₂, rfl, f1, f2⟩ := forall₂_append_right k3
  cases f2 with
  | cons h1 h2 =>
    cases h2 with
    | cons h3 h4 =>
      cases h4
      rename_i a b
      obtain ⟨a1, a2⟩ := a
      obtain ⟨b1, b2⟩ := b
      obtain ⟨rfl, h1⟩ := h1
      obtain ⟨rfl, h3⟩ := h3
      refine ⟨kv₀, kv', a2, b2, g1, ?_, h1, h3⟩
      rw [k1]
      congr 3
      have : ∀ (k : Nat) (l : List (Nat × Bytes)), List.Forall₂ (fun (o : Nat × Bytes) (l : Nat × Bits) => o.1 = l.1 ∧ Holds o.2 l.2) l
          (List.replicate k (0, [])) → l = List.replicate k (0, []) := by
        intro k
        induction k with
        | zero => intro l h; cases h; rfl
        | succ k ih =>
          intro l h
          rw [List.replicate_succ] at h
          cases h with
          | cons h1 h2 =>
            rename_i a l
            obtain ⟨a1, a2⟩ := a
            obtain ⟨rfl, h1⟩ := h1
            rw [ih _ h2, List.replicate_succ]
            congr 2
            have := congrArg List.length h1
            rw [Bits.length_ofBytes] at this
            exact List.eq_nil_of_length_eq_zero (by simpa using this)
      exact this _ _ f1

/-- C31 for the function `Kravatte` / `Xoofff` that does everything in one call: with the flag `init`, it computes Farfalle of
one string. -/
theorem C31_full (hC : Valid C) (hM : Matches C P) (kv : Inst) (hs : Sized C kv) (key : Bytes) (keyLen : Nat)
    (hk : (keyLen + 7) / 8 ≤ key.length) (hkl : keyLen < P.b) (input : Bytes) (m : Nat) (hm : (m + 7) / 8 ≤ input.length)
    (hc : Clean input m) (n : Nat) (hn : n + 7 < 2 ^ 64) (init last short : Bool) :
    ∃ kv₀ kv' o, maskDerivation C kv key keyLen = some (0, kv₀) ∧
      full C kv₀ input m n ⟨init, last, short⟩ = some (0, kv', o) ∧
      Holds o (Spec.Farfalle.farfalle (if short then P.short else P) ((Bits.ofBytes key).take keyLen)
        [(Bits.ofBytes input).take m] 0 n) := by
  obtain ⟨kv₀, g1, g2⟩ := maskDerivation_spec hC hM kv hs key keyLen hk hkl
  obtain ⟨kv1, h1, h2⟩ := g2.compress hC hM input m ⟨init, true, short⟩ hm (fun _ => hc)
  have hS : Spec.Farfalle.Obj.compress (Spec.Farfalle.Obj.start P ((Bits.ofBytes key).take keyLen)) ((Bits.ofBytes input).take m) init true
      = (0, ⟨Spec.Farfalle.mask P ((Bits.ofBytes key).take keyLen), [(Bits.ofBytes input).take m], [], .input⟩) := by
    cases init <;> rfl
  rw [hS] at h1 h2
  obtain ⟨kv2, o, k1, k2, k3⟩ := h2.expand hC hM n ⟨init, true, short⟩ hn (c := 0)
    (S' := ⟨Spec.Farfalle.mask P ((Bits.ofBytes key).take keyLen), [(Bits.ofBytes input).take m], [], .finished⟩)
    (l := Spec.Farfalle.farfalle (if short then P.short else P) ((Bits.ofBytes key).take keyLen) [(Bits.ofBytes input).take m] 0 n)
    (by
      have hmask : Spec.Farfalle.mask (if short then P.short else P) ((Bits.ofBytes key).take keyLen) =
        Spec.Farfalle.mask P ((Bits.ofBytes key).take keyLen) := by cases short <;> rfl
      simp [Spec.Farfalle.Obj.expand, Spec.Farfalle.farfalle, hmask])
  refine ⟨kv₀, kv2, o, g1, ?_, k2⟩
  simp only [full, Option.bind_eq_bind]
  rw [h1, Option.bind_some]
  exact k1

/-! ## Unused bits of the last byte (C44) -/

/-- The unused bits of the last input byte are compressed: the one-bit string 0 in the byte 0x80 is treated like the seven-bit
string 0100000 (byte 0x02), for every permutation; so C29 and C31 need the hypothesis `Clean`. -/
theorem C44_farfalle_collision (hC : Valid C) (kv : Inst) (hs : Sized C kv) (hph : kv.phase = .compressing)
    (h0 : kv.queueOffset = 0) :
    ∃ kv₁ kv₂, compress C kv [0x80] 1 { last := true } = some (0, kv₁) ∧ compress C kv [0x02] 7 { last := true } = some (0, kv₂) ∧
      kv₁.xAccu = kv₂.xAccu ∧ kv₁.kRoll = kv₂.kRoll ∧ kv₁.k = kv₂.k ∧ kv₁.phase = kv₂.phase ∧
      kv₁.queueOffset = kv₂.queueOffset := by
  have hp := Pend.nil hC h0
  obtain ⟨kv₁, g1, g2, g3, g4, g5⟩ := compress_true hC kv hs hph [] hp [0x80] 1 0x82 (by decide) (by decide) false
  obtain ⟨kv₂, k1, k2, k3, k4, k5⟩ := compress_true hC kv hs hph [] hp [0x02] 7 0x82 (by decide) (by decide) false
  have he := g4.trans k4.symm
  exact ⟨kv₁, kv₂, g1, k1, (Prod.mk.inj he).2, (Prod.mk.inj he).1, g3.k.trans k3.k.symm, g3.phase.trans k3.phase.symm,
    g5.offset.trans k5.offset.symm⟩

/-- C44 for the key: only the first `n` bits matter. -/
theorem C44_farfalle_key (hC : Valid C) (hM : Matches C P) (kv : Inst) (hs : Sized C kv) (key key' : Bytes) (n : Nat)
    (hk : (n + 7) / 8 ≤ key.length) (hk' : (n + 7) / 8 ≤ key'.length)
    (h : (Bits.ofBytes key).take n = (Bits.ofBytes key').take n) :
    maskDerivation C kv key n = maskDerivation C kv key' n := by
  by_cases hn : n < P.b
  · have hd : key.take (n / 8) = key'.take (n / 8) := by
      apply Bits.ofBytes_injective
      rw [← Bits.take_ofBytes, ← Bits.take_ofBytes]
      have := congrArg (List.take (8 * (n / 8))) h
      rwa [List.take_take, List.take_take, Nat.min_eq_left (by omega)] at this
    obtain ⟨b, l, h1, h2, h3⟩ := keyLastByte_spec key n hk
    obtain ⟨b', l', h1', h2', h3'⟩ := keyLastByte_spec key' n hk'
    have hl : l = l' := by
      rw [h3, h3', hd] at h
      exact List.append_cancel_left h
    subst hl
    have hb : b = b' := BitVec.eq_of_toNat_eq (h2.2.trans h2'.2.symm)
    subst hb
    unfold maskDerivation
    rw [h1, h1', SnP.readBuf_some (show n / 8 ≤ key.length by omega), SnP.readBuf_some (show n / 8 ≤ key'.length by omega), hd]
  · rw [C31_key hM kv key n (by omega), C31_key hM kv key' n (by omega)]

/-! ## The two instances -/

/-- Kravatte with any implementation of Keccak-p[1600, 6] and any parallel paths that meet their contract. -/
theorem kravatte_ok (permute : Bytes → Bytes) (hp : ∀ s : Bytes, s.length = 200 → (permute s).length = 200 ∧
      Bits.ofBytes (permute s) = Spec.KeccakP.keccakP 6 (Bits.ofBytes s)) (junk : Bytes) (hj : junk.length = 200)
    (paths : List Path) (hpaths : ∀ p ∈ paths, PathOk (Kravatte.cfg permute junk paths) p) :
    Valid (Kravatte.cfg permute junk paths) ∧ Matches (Kravatte.cfg permute junk paths) Spec.Kravatte.par :=
  ⟨Kravatte.valid (fun s h => (hp s h).1) hj hpaths, rfl, fun s h => (hp s h).2, fun s h => (hp s h).2, fun s h => (hp s h).2,
    fun s h => (hp s h).2, Kravatte.rollc_spec, Kravatte.rolle_spec⟩

/-- Xoofff with any implementation of Xoodoo[6] and any parallel paths that meet their contract. -/
theorem xoofff_ok (permute : Bytes → Bytes) (hp : ∀ s : Bytes, s.length = 48 → (permute s).length = 48 ∧
      Bits.ofBytes (permute s) = Spec.Xoodoo.xoodoo 6 (Bits.ofBytes s)) (junk : Bytes) (hj : junk.length = 48)
    (paths : List Path) (hpaths : ∀ p ∈ paths, PathOk (Xoofff.cfg permute junk paths) p) :
    Valid (Xoofff.cfg permute junk paths) ∧ Matches (Xoofff.cfg permute junk paths) Spec.Xoofff.par :=
  ⟨Xoofff.valid (fun s h => (hp s h).1) hj hpaths, rfl, fun s h => (hp s h).2, fun s h => (hp s h).2, fun s h => (hp s h).2,
    fun s h => (hp s h).2, fun s _ => Xoofff.rollc_spec s, fun s _ => Xoofff.rolle_spec s⟩

/-- `KeccakP1600_Permute_Nrounds(6)` of the optimised 64-bit implementation, on the bytes its words represent. -/
def keccakOpt6 (k : KeccakP1600.Opt64.Cfg) (E0 : KeccakP1600.Opt64.V) (C0 : KeccakP1600.Opt64.C5) (s : Bytes) : Bytes :=
  KeccakP1600.Opt64.view k
    (KeccakP1600.Opt64.permuteNrounds k E0 C0 (KeccakP1600.Opt64.plain k (KeccakP1600.lanesOfBytes s)) 6)

/-- `Xoodoo_Permute_6rounds` of the optimised implementation, on the bytes its words represent. -/
def xoodooOpt6 (s : Bytes) : Bytes := Xoodoo.bytesOfLanes (Xoodoo.Opt.permute6 (Xoodoo.lanesOfBytes s))

/-- C31 for Kravatte: the reference and the optimised implementation of Keccak-p[1600] meet the hypothesis of `kravatte_ok`. -/
theorem C31_kravatte (permute : Bytes → Bytes) (h : permute = KeccakP1600.Ref.permuteNrounds 6 ∨ ∃ k E0 C0, permute = keccakOpt6 k E0 C0)
    (s : Bytes) (hs : s.length = 200) :
    (permute s).length = 200 ∧ Bits.ofBytes (permute s) = Spec.KeccakP.keccakP 6 (Bits.ofBytes s) := by
  rcases h with rfl | ⟨k, E0, C0, rfl⟩
  · exact KeccakP1600.C37_ref 6 (by decide) s hs
  · refine ⟨KeccakP1600.Opt64.length_view _ _, ?_⟩
    have h := (KeccakP1600.C37_opt64 k E0 C0 (KeccakP1600.Opt64.plain k (KeccakP1600.lanesOfBytes s))).1 6 (by decide)
    rw [show KeccakP1600.Opt64.view k (KeccakP1600.Opt64.plain k (KeccakP1600.lanesOfBytes s)) = s by
      rw [KeccakP1600.Opt64.view, KeccakP1600.Opt64.plain_plain, KeccakP1600.bytesOfLanes_lanesOfBytes s hs]] at h
    exact h

/-- C31 for Xoofff: the reference and the optimised implementation of Xoodoo meet the hypothesis of `xoofff_ok`. -/
theorem C31_xoofff (permute : Bytes → Bytes) (h : permute = Xoodoo.Ref.permute6 ∨ permute = xoodooOpt6)
    (s : Bytes) (hs : s.length = 48) :
    (permute s).length = 48 ∧ Bits.ofBytes (permute s) = Spec.Xoodoo.xoodoo 6 (Bits.ofBytes s) := by
  rcases h with rfl | rfl
  · have h := Xoodoo.C42_ref s hs
    rw [h.2.1]
    exact h.1 6 (by decide)
  · refine ⟨Xoodoo.length_bytesOfLanes _, ?_⟩
    have h := (Xoodoo.C42_spec (Xoodoo.lanesOfBytes s)).2.1
    rw [Xoodoo.bytesOfLanes_lanesOfBytes s hs] at h
    exact h

/-! ## Cases that meet the hypotheses -/

/-- An instance whose arrays have the size of the type. -/
def blank (w : Nat) : Inst :=
  ⟨Bytes.zeros w, Bytes.zeros w, Bytes.zeros w, Bytes.zeros w, Bytes.zeros w, 0, .compressing⟩

example : Sized (Kravatte.cfg (KeccakP1600.Ref.permuteNrounds 6) (Bytes.zeros 200) [.plSnP 8, .plSnP 4, .plSnP 2]) (blank 200) := by
  constructor <;> exact Bytes.length_zeros 200

/-- Kravatte with the three parallel paths that `Kravatte.c` can use. -/
example : Valid (Kravatte.cfg (KeccakP1600.Ref.permuteNrounds 6) (Bytes.zeros 200) [.plSnP 8, .plSnP 4, .plSnP 2]) ∧
    Matches (Kravatte.cfg (KeccakP1600.Ref.permuteNrounds 6) (Bytes.zeros 200) [.plSnP 8, .plSnP 4, .plSnP 2]) Spec.Kravatte.par :=
  kravatte_ok _ (C31_kravatte _ (.inl rfl)) _ (Bytes.length_zeros 200) _ (by
    intro p hp
    simp only [List.mem_cons, List.not_mem_nil, or_false] at hp
    rcases hp with rfl | rfl | rfl <;> simp [PathOk])

/-- Xoofff with the functions for 16 blocks, given by their contract, and without. -/
example : ∃ F G, ∀ paths, paths = [.fast 16 F G, .plSnP 8, .plSnP 4] ∨ paths = [] →
    Valid (Xoofff.cfg Xoodoo.Ref.permute6 (Bytes.zeros 48) paths) ∧
    Matches (Xoofff.cfg Xoodoo.Ref.permute6 (Bytes.zeros 48) paths) Spec.Xoofff.par := by
  let C := Xoofff.cfg Xoodoo.Ref.permute6 (Bytes.zeros 48) []
  have he : ∀ paths n st d, eat (Xoofff.cfg Xoodoo.Ref.permute6 (Bytes.zeros 48) paths) n st d = eat C n st d := by
    intro paths n
    induction n with
    | zero => intro st d; rfl
    | succ n ih => intro st d; rw [eat, eat, ih]; rfl
  have hg : ∀ paths k n y, gen (Xoofff.cfg Xoodoo.Ref.permute6 (Bytes.zeros 48) paths) k n y = gen C k n y := by
    intro paths k n
    induction n with
    | zero => intro y; rfl
    | succ n ih => intro y; rw [gen, gen, ih]; rfl
  refine ⟨fun k x m => ((eat C (m.length / (16 * 48) * 16) (k, x) m).1, (eat C (m.length / (16 * 48) * 16) (k, x) m).2,
      m.length / (16 * 48) * 16 * 48),
    fun y kRoll len => (Nat.repeat (re C) (len / (16 * 48) * 16) y, gen C kRoll (len / (16 * 48) * 16) y), ?_⟩
  intro paths hp
  refine xoofff_ok _ (C31_xoofff _ (.inl rfl)) _ (Bytes.length_zeros 48) _ ?_
  intro p hm
  rcases hp with rfl | rfl
  · simp only [List.mem_cons, List.not_mem_nil, or_false] at hm
    rcases hm with rfl | rfl | rfl
    · refine ⟨by decide, fun k x m _ _ _ => ?_, fun y kRoll len _ _ _ => ?_⟩
      · rw [he]; rfl
      · rw [hg]; rfl
    · simp [PathOk]
    · simp [PathOk]
  · cases hm

/-- 13 bits in two bytes, the three unused bits 0; a string given in two pieces. -/
example : Clean [0xff, 0x1f] 13 ∧ (13 + 7) / 8 ≤ ([0xff, 0x1f] : Bytes).length ∧
    (inputBits [[0x01], [0x02, 0x03]] [0xff, 0x1f] 13).length = 37 := by
  refine ⟨?_, by decide, by decide⟩
  intro x hx _
  cases hx
  decide

/-- A sequence of calls that the specification accepts: a string in two pieces, output in two pieces, a refused call, another
string, output again. -/
example : ∀ c ∈ ([.compress [1, 2, 3] 24 {}, .expand 8 {}, .compress [0xff, 0x1f] 13 { last := true }, .expand 80 {}, .expand 13 { last := true },
      .expand 8 {}, .compress [] 0 { last := true }, .expand 5 { last := true, short := true }] : List Call), c.Ok := by
  simp only [List.mem_cons, List.not_mem_nil, or_false]
  rintro c (rfl | rfl | rfl | rfl | rfl | rfl | rfl | rfl) <;> simp [Call.Ok, Clean]

example : ((Spec.Farfalle.Obj.start Spec.Kravatte.par []).run Spec.Kravatte.par
    (([.compress [1, 2, 3] 24 {}, .expand 8 {}, .compress [0xff, 0x1f] 13 { last := true }, .expand 80 {}, .expand 13 { last := true },
      .expand 8 {}, .compress [] 0 { last := true }, .expand 5 { last := true, short := true }] : List Call).map Call.op)).map
      (fun r => r.2.map (·.1)) = some [0, 1, 0, 0, 0, 1, 0, 0] := by
  rfl

end Farfalle
