import Verif.Proofs.FarfalleSpec

/-! Sequences of calls on a Kravatte or Xoofff instance. -/

namespace Spec.Farfalle

theorem accumulate_short (P : Par) (k : Bits) (ms : List Bits) : ∀ (x : Bits) (I : Nat),
    accumulate P.short k x I ms = accumulate P k x I ms := by
  induction ms with
  | nil => intro x I; rfl
  | cons m ms ih => intro x I; rw [accumulate, accumulate, ih]; rfl

theorem compressOne_short (P : Par) (k : Bits) : compressOne P.short k = compressOne P k := by
  funext st M
  rw [compressOne, compressOne, accumulate_short]; rfl

theorem compress_short (P : Par) (k : Bits) (Ms : List Bits) : compress P.short k Ms = compress P k Ms := by
  rw [compress, compress, compressOne_short]; rfl

end Spec.Farfalle

namespace Farfalle

variable {C : Cfg} {P : Spec.Farfalle.Par}

/-- The bytes `o` hold the bits `l`, and zeros in the rest of the last byte. -/
def Holds (o : Bytes) (l : Bits) : Prop := Bits.ofBytes o = l ++ List.replicate ((8 - l.length % 8) % 8) false

/-- The instance `kv` represents the object `S`. -/
structure Rep (C : Cfg) (P : Spec.Farfalle.Par) (kv : Inst) (S : Spec.Farfalle.Obj) : Prop where
  sized : Sized C kv
  k : Bits.ofBytes kv.k = S.k
  body : match S.mode with
    | .input => kv.phase = .compressing ∧ ∃ (st : Bytes × Bytes) (r : Bytes), S.cur = Bits.ofBytes r ∧
        AccOk C P kv.k st S.done ∧ (kv.kRoll, kv.xAccu) = eat C (r.length / C.width) st r ∧
        Pend C kv (r.drop (r.length / C.width * C.width))
    | .output sh pos => S.cur = [] ∧ AccOk C P kv.k (kv.kRoll, kv.xAccu) S.done ∧
        ∃ p, pos = 8 * p ∧ Exp C kv (if sh then kv.xAccu else C.permute kv.xAccu) p
    | .finished => S.cur = [] ∧ AccOk C P kv.k (kv.kRoll, kv.xAccu) S.done ∧ kv.phase = .expanded

theorem append_tail (hC : Valid C) (r d : Bytes) :
    (r ++ d).drop (r.length / C.width * C.width) = r.drop (r.length / C.width * C.width) ++ d ∧
    (r ++ d).length / C.width = r.length / C.width + (r.drop (r.length / C.width * C.width) ++ d).length / C.width := by
  have hw := hC.width_pos
  have hle := Nat.div_mul_le_self r.length C.width
  refine ⟨List.drop_append_of_le_length hle, ?_⟩
  rw [List.length_append, List.length_append, length_tail]
  have hsp := Nat.div_add_mod r.length C.width
  rw [show r.length + d.length = r.length % C.width + d.length + C.width * (r.length / C.width) by omega,
    Nat.add_mul_div_left _ _ hw, Nat.add_comm]

theorem eat_append (hC : Valid C) (st : Bytes × Bytes) (r d : Bytes) :
    eat C ((r.drop (r.length / C.width * C.width) ++ d).length / C.width) (eat C (r.length / C.width) st r)
      (r.drop (r.length / C.width * C.width) ++ d) = eat C ((r ++ d).length / C.width) st (r ++ d) := by
  have hle := Nat.div_mul_le_self r.length C.width
  obtain ⟨h1, h2⟩ := append_tail hC r d
  rw [h2, eat_add, h1]
  congr 1
  rw [← eat_take _ _ (r ++ d) _ (Nat.le_refl _), List.take_append_of_le_length hle, eat_take _ _ _ _ (Nat.le_refl _)]

theorem tail_append (hC : Valid C) (r d : Bytes) :
    (r.drop (r.length / C.width * C.width) ++ d).drop
      ((r.drop (r.length / C.width * C.width) ++ d).length / C.width * C.width) =
      (r ++ d).drop ((r ++ d).length / C.width * C.width) := by
  obtain ⟨h1, h2⟩ := append_tail hC r d
  rw [h2, Nat.add_mul, ← List.drop_drop, h1]

theorem finish_append (hC : Valid C) (st : Bytes × Bytes) (r d : Bytes) (b : Byte) :
    finish C (eat C (r.length / C.width) st r) (r.drop (r.length / C.width * C.width) ++ d) b = finish C st (r ++ d) b := by
  rw [finish, finish, eat_append hC, tail_append hC]

/-- The instance a compression call starts from. -/
def prep (C : Cfg) (kv : Inst) (init : Bool) : Inst :=
  { resetAccu C kv init with
    phase := .compressing, queueOffset := (if kv.phase ≠ .compressing then 0 else (resetAccu C kv init).queueOffset) }

theorem resetAccu_phase (C : Cfg) (kv : Inst) (init : Bool) : (resetAccu C kv init).phase = kv.phase := by
  unfold resetAccu; split <;> rfl

theorem compress_prep (C : Cfg) (kv : Inst) (input : Bytes) (n : Nat) (init last short : Bool)
    (h : ¬(last = false ∧ n % 8 ≠ 0)) :
    compress C kv input n ⟨init, last, short⟩ = compress C (prep C kv init) input n ⟨false, last, short⟩ := by
  rw [compress_unfold C (prep C kv init) rfl input n last short h]
  unfold compress
  rw [if_neg h]
  dsimp only
  rw [resetAccu_phase]
  by_cases hph : kv.phase = .compressing
  · have hp : prep C kv init = resetAccu C kv init := by
      unfold prep
      rw [if_neg (by simp [hph])]
      have := resetAccu_phase C kv init
      rw [hph] at this
      generalize resetAccu C kv init = z at *
      cases z; simp_all
    rw [if_neg (by simp [hph]), hp]
  · have h0 : (prep C kv init).queueOffset = 0 := by
      unfold prep; rw [if_pos (by simpa using hph)]
    rw [if_pos (by simpa using hph), h0, if_neg (by simp)]
    unfold prep
    rw [if_pos (by simpa using hph)]

theorem Rep.acc {kv : Inst} {S : Spec.Farfalle.Obj} (h : Rep C P kv S) (hm : S.mode ≠ .input) :
    S.cur = [] ∧ AccOk C P kv.k (kv.kRoll, kv.xAccu) S.done ∧ kv.phase ≠ .compressing := by
  have hb := h.body
  split at hb
  · exact absurd ‹_› hm
  · obtain ⟨h1, h2, p, _, h3⟩ := hb
    exact ⟨h1, h2, by rw [h3.phase]; decide⟩
  · obtain ⟨h1, h2, h3⟩ := hb
    exact ⟨h1, h2, by rw [h3]; decide⟩

theorem Pend.nil (hC : Valid C) {kv : Inst} (h : kv.queueOffset = 0) : Pend C kv [] :=
  ⟨hC.width_pos, by simp [h], by simp⟩

theorem Rep.prep (hC : Valid C) (hM : Matches C P) {kv : Inst} {S : Spec.Farfalle.Obj} (h : Rep C P kv S) (init : Bool) :
    Rep C P (prep C kv init)
      { S with done := (if init then [] else S.done), cur := (if init then [] else S.cur), mode := .input } := by
  have hs := h.sized
  cases init with
  | true =>
    refine ⟨⟨hs.k, hs.k, Bytes.length_zeros _, hs.yAccu, hs.queue⟩, h.k, rfl, (kv.k, Bytes.zeros C.width), [], rfl,
      AccOk.start hM _, ?_, by rw [List.drop_nil]; exact Pend.nil hC (by simp [Farfalle.prep, resetAccu])⟩
    · simp [Farfalle.prep, resetAccu, eat]
  | false =>
    by_cases hm : S.mode = .input
    · have hb := h.body
      rw [hm] at hb
      obtain ⟨h1, st, r, h2, h3, h4, h5⟩ := hb
      have hp : Farfalle.prep C kv false = kv := by
        unfold Farfalle.prep resetAccu
        cases kv; simp_all
      rw [hp]
      exact ⟨hs, h.k, h1, st, r, h2, h3, h4, h5⟩
    · obtain ⟨h1, h2, h3⟩ := h.acc hm
      refine ⟨⟨hs.k, hs.kRoll, hs.xAccu, hs.yAccu, hs.queue⟩, h.k, rfl, (kv.kRoll, kv.xAccu), [], by simp [h1], h2, ?_,
        by rw [List.drop_nil]; exact Pend.nil hC (by simp [Farfalle.prep, h3])⟩
      · simp [Farfalle.prep, resetAccu, eat]

/-- A compression call. -/
theorem Rep.compress (hC : Valid C) (hM : Matches C P) {kv : Inst} {S : Spec.Farfalle.Obj} (h : Rep C P kv S)
    (input : Bytes) (n : Nat) (flags : Flags) (hn : (n + 7) / 8 ≤ input.length) (hc : flags.last = true → Clean input n) :
    ∃ kv', compress C kv input n flags = some ((S.compress ((Bits.ofBytes input).take n) flags.init flags.last).1, kv') ∧
      Rep C P kv' (S.compress ((Bits.ofBytes input).take n) flags.init flags.last).2 := by
  obtain ⟨init, last, short⟩ := flags
  have hlen : ((Bits.ofBytes input).take n).length = n := by rw [List.length_take, Bits.length_ofBytes]; omega
  by_cases he : last = false ∧ n % 8 ≠ 0
  · rw [Spec.Farfalle.Obj.compress, hlen, if_pos he]
    exact ⟨kv, by unfold Farfalle.compress; rw [if_pos he], h⟩
  · rw [Spec.Farfalle.Obj.compress, hlen, if_neg he, compress_prep C kv input n init last short he]
    obtain ⟨hs, hk, hph, st, r, h2, h3, h4, h5⟩ := h.prep hC hM init
    dsimp only at h2 h3 h4 h5 hk ⊢
    cases last with
    | false =>
      obtain ⟨m, rfl⟩ : ∃ m, n = 8 * m := ⟨n / 8, by simp at he; omega⟩
      obtain ⟨kv', g1, g2, g3, g4, g5⟩ := compress_false hC _ hs hph _ h5 input m (by omega) short
      refine ⟨kv', g1, g2, by rw [g3.k]; exact hk, g3.phase.trans hph, st, r ++ input.take m, ?_, by rw [g3.k]; exact h3, ?_, ?_⟩
      · change _ ++ _ = _
        rw [h2, Bits.take_ofBytes, Bits.ofBytes_append]
      · rw [g4, h4, eat_append hC]
      · rw [tail_append hC] at g5; exact g5
    | true =>
      obtain ⟨b, l, hb, hd, hl⟩ := padByte_spec input n hn (hc rfl)
      obtain ⟨kv', g1, g2, g3, g4, g5⟩ := compress_true hC _ hs hph _ h5 input n b (by omega) hb short
      refine ⟨kv', g1, g2, by rw [g3.k]; exact hk, g3.phase.trans hph, (kv'.kRoll, kv'.xAccu), [], rfl, ?_, by simp [eat],
        by simpa using g5⟩
      change AccOk C P kv'.k _ (_ ++ [_ ++ _])
      rw [g4, h4, finish_append hC, g3.k, h2, hl, ← List.append_assoc, ← Bits.ofBytes_append]
      exact h3.finish hC hM hs.k _ _ _ hd

theorem length_stream (P : Spec.Farfalle.Par) (k y : Bits) (q n : Nat) : (Spec.Farfalle.stream P k y q n).length = n := by
  simp [Spec.Farfalle.stream]

theorem length_output (P : Spec.Farfalle.Par) (k : Bits) (Ms : List Bits) (q n : Nat) :
    (Spec.Farfalle.output P k Ms q n).length = n := length_stream _ _ _ _ _

/-- The bits of the output. -/
theorem output_spec (hC : Valid C) (hM : Matches C P) {kv : Inst} (hs : Sized C kv) {done : List Bits}
    (ha : AccOk C P kv.k (kv.kRoll, kv.xAccu) done) (sh : Bool) (p m n : Nat) (hn : n ≤ 8 * m) :
    (Bits.ofBytes (cut C kv.kRoll (if sh then kv.xAccu else C.permute kv.xAccu) p m)).take n =
      Spec.Farfalle.output (if sh then P.short else P) (Bits.ofBytes kv.k) done (8 * p) n := by
  have hmask : Bits.ofBytes kv.kRoll =
      Nat.repeat P.rollc (Spec.Farfalle.compress P (Bits.ofBytes kv.k) done).2 (Bits.ofBytes kv.k) := by
    rw [show kv.kRoll = _ from ha.mask]
    exact ofBytes_repeat hC.rollc_ok.len hM.rollc _ hs.k
  have hacc : Bits.ofBytes kv.xAccu = (Spec.Farfalle.compress P (Bits.ofBytes kv.k) done).1 := ha.acc
  cases sh with
  | false =>
    rw [cut_spec hC hM hs.kRoll (by exact hC.permute_len _ hs.xAccu) p m n hn]
    simp only [Bool.false_eq_true, if_false]
    rw [hM.pd _ hs.xAccu, hmask, hacc]
    rfl
  | true =>
    rw [cut_spec hC hM hs.kRoll (by exact hs.xAccu) p m n hn]
    simp only [if_true]
    rw [hmask, hacc, Spec.Farfalle.output, Spec.Farfalle.compress_short]
    rfl

/-- Giving output, once the expansion started. -/
theorem emit_spec (hC : Valid C) (hM : Matches C P) {kv : Inst} (hs : Sized C kv) {S : Spec.Farfalle.Obj}
    (hk : Bits.ofBytes kv.k = S.k) (hcur : S.cur = []) (ha : AccOk C P kv.k (kv.kRoll, kv.xAccu) S.done) (sh : Bool) (p : Nat)
    (he : Exp C kv (if sh then kv.xAccu else C.permute kv.xAccu) p) (n : Nat) (hn : n + 7 < 2 ^ 64) (flags : Flags)
    (h8 : ¬(flags.last = false ∧ n % 8 ≠ 0)) :
    ∃ kv' o, expand C kv n flags = some (0, kv', o) ∧
      Holds o (Spec.Farfalle.output (if sh then P.short else P) S.k S.done (8 * p) n) ∧
      Rep C P kv' { S with mode := if flags.last then .finished else .output sh (8 * p + n) } := by
  obtain ⟨init, last, short⟩ := flags
  have hy0 : (if sh then kv.xAccu else C.permute kv.xAccu).length = C.width := by
    cases sh
    · exact hC.permute_len _ hs.xAccu
    · exact hs.xAccu
  cases last with
  | false =>
    obtain ⟨m, rfl⟩ : ∃ m, n = 8 * m := ⟨n / 8, by simp at h8; omega⟩
    obtain ⟨kv', g1, g2, g3, g4⟩ := expand_false hC kv hs _ hy0 p he m hn init short
    refine ⟨kv', _, g1, ?_, g2, by rw [g3.k]; exact hk, ?_⟩
    · have := output_spec hC hM hs ha sh p m (8 * m) (Nat.le_refl _)
      rw [List.take_of_length_le (by rw [Bits.length_ofBytes, length_cut hC hs.kRoll hy0])] at this
      rw [Holds, this, length_output, hk]
      simp
    · simp only [Bool.false_eq_true, if_false]
      refine ⟨hcur, by rw [g3.k, g3.kRoll, g3.xAccu]; exact ha, p + m, by omega, ?_⟩
      rw [g3.xAccu]; exact g4
  | true =>
    obtain ⟨kv', o, g0, g1, g2, g3, g4⟩ := expand_true hC kv hs _ hy0 p he n hn init short
    refine ⟨kv', o, g1, ?_, g2, by rw [g3.k]; exact hk, ?_⟩
    · rw [Holds, maskLast_spec (length_cut hC hs.kRoll hy0 _ _) g0,
        output_spec hC hM hs ha sh p _ n (by omega), length_output, hk,
        show 8 * ((n + 7) / 8) - n = (8 - n % 8) % 8 by omega]
    · simp only [if_true]
      exact ⟨hcur, by rw [g3.k, g3.kRoll, g3.xAccu]; exact ha, g4⟩

/-- An expansion call. -/
theorem Rep.expand (hC : Valid C) (hM : Matches C P) {kv : Inst} {S : Spec.Farfalle.Obj} (h : Rep C P kv S)
    (n : Nat) (flags : Flags) (hn : n + 7 < 2 ^ 64) {c : Nat} {S' : Spec.Farfalle.Obj} {l : Bits}
    (he : S.expand P n flags.last flags.short = some (c, S', l)) :
    ∃ kv' o, expand C kv n flags = some (c, kv', o) ∧ Holds o l ∧ Rep C P kv' S' := by
  have hnil : Holds [] [] := by simp [Holds]
  unfold Spec.Farfalle.Obj.expand at he
  by_cases h8 : flags.last = false ∧ n % 8 ≠ 0
  · rw [if_pos h8] at he
    cases he
    exact ⟨kv, [], by unfold Farfalle.expand; rw [if_pos h8], hnil, h⟩
  · rw [if_neg h8] at he
    have hb := h.body
    split at he
    · rename_i hm
      cases he
      rw [hm] at hb
      obtain ⟨h1, h2, h3⟩ := hb
      refine ⟨kv, [], ?_, hnil, h⟩
      unfold Farfalle.expand
      rw [if_neg h8, if_neg (by rw [h3]; decide), if_pos (by rw [h3]; decide)]
    · rename_i sh pos hm
      cases he
      rw [hm] at hb
      obtain ⟨h1, h2, p, rfl, h3⟩ := hb
      exact emit_spec hC hM h.sized h.k h1 h2 sh p h3 n hn flags h8
    · rename_i hm
      rw [hm] at hb
      obtain ⟨h1, st, r, h2, h3, h4, h5⟩ := hb
      split at he
      · rename_i hr
        cases he
        refine ⟨kv, [], ?_, hnil, h⟩
        have ho : kv.queueOffset ≠ 0 := by
          rw [h2, Bits.length_ofBytes, hM.b, Nat.mul_mod_mul_left] at hr
          rw [h5.offset, length_tail]
          omega
        unfold Farfalle.expand
        rw [if_neg h8, if_pos h1, if_pos ho]
      · split at he
        · rename_i hcur
          cases he
          have hr : r = [] := by
            rw [hcur] at h2
            have := congrArg List.length h2
            rw [Bits.length_ofBytes] at this
            exact List.eq_nil_of_length_eq_zero (by rw [List.length_nil] at this; omega)
          subst hr
          have h0 : kv.queueOffset = 0 := by simpa using h5.offset
          have hst : st = (kv.kRoll, kv.xAccu) := by rw [h4]; simp [eat]
          subst hst
          rcases expand_start hC kv h.sized h1 h0 n flags with hst | hbad
          · rw [hst]
            have hyl : (if flags.short then kv.xAccu else C.permute kv.xAccu).length = C.width := by
              split
              · exact h.sized.xAccu
              · exact hC.permute_len _ h.sized.xAccu
            refine emit_spec hC hM (kv := { kv with yAccu := (if flags.short then kv.xAccu else C.permute kv.xAccu), phase := .expanding })
              ⟨h.sized.k, h.sized.kRoll, h.sized.xAccu, hyl, h.sized.queue⟩ h.k hcur h3 flags.short 0 ?_ n hn flags h8
            exact ⟨rfl, by simp [nblk]; rfl, by simp [h0], by simp⟩
          · exact absurd hbad h8
        · cases he

/-- A call of the code. -/
inductive Call
  | compress (input : Bytes) (bitLen : Nat) (flags : Flags)
  | expand (bitLen : Nat) (flags : Flags)

/-- Return code, instance and output of a call. -/
def Call.exec (C : Cfg) (kv : Inst) : Call → Option (Nat × Inst × Bytes)
  | .compress input n flags => (Farfalle.compress C kv input n flags).map fun r => (r.1, r.2, [])
  | .expand n flags => Farfalle.expand C kv n flags

/-- The conditions on the arguments: buffers as long as announced, unused bits zero, lengths that can be rounded up. -/
def Call.Ok : Call → Prop
  | .compress input n flags => (n + 7) / 8 ≤ input.length ∧ (flags.last = true → Clean input n)
  | .expand n _ => n + 7 < 2 ^ 64

/-- What the call asks for. -/
def Call.op : Call → Spec.Farfalle.Op
  | .compress input n flags => .compress ((Bits.ofBytes input).take n) flags.init flags.last
  | .expand n flags => .expand n flags.last flags.short

/-- A sequence of calls. -/
def run (C : Cfg) : Inst → List Call → Option (Inst × List (Nat × Bytes))
  | kv, [] => some (kv, [])
  | kv, c :: cs => do
    let (rc, kv, o) ← c.exec C kv
    let (kv, os) ← run C kv cs
    some (kv, (rc, o) :: os)

theorem Rep.step (hC : Valid C) (hM : Matches C P) {kv : Inst} {S : Spec.Farfalle.Obj} (h : Rep C P kv S) (c : Call) (hc : c.Ok)
    {e : Nat} {S' : Spec.Farfalle.Obj} {l : Bits} (he : S.step P c.op = some (e, S', l)) :
    ∃ kv' o, c.exec C kv = some (e, kv', o) ∧ Holds o l ∧ Rep C P kv' S' := by
  cases c with
  | compress input n flags =>
    obtain ⟨kv', g1, g2⟩ := h.compress hC hM input n flags hc.1 hc.2
    simp only [Call.op, Spec.Farfalle.Obj.step, Option.some.injEq, Prod.mk.injEq] at he
    obtain ⟨rfl, rfl, rfl⟩ := he
    exact ⟨kv', [], by rw [Call.exec, g1]; rfl, by simp [Holds], g2⟩
  | expand n flags => exact h.expand hC hM n flags hc he

theorem Rep.run (hC : Valid C) (hM : Matches C P) : ∀ (cs : List Call) {kv : Inst} {S S' : Spec.Farfalle.Obj}
    {ls : List (Nat × Bits)}, Rep C P kv S → (∀ c ∈ cs, c.Ok) → S.run P (cs.map Call.op) = some (S', ls) →
    ∃ kv' os, run C kv cs = some (kv', os) ∧ Rep C P kv' S' ∧
      List.Forall₂ (fun o l => o.1 = l.1 ∧ Holds o.2 l.2) os ls := by
  intro cs
  induction cs with
  | nil =>
    intro kv S S' ls h _ he
    cases he
    exact ⟨kv, [], rfl, h, .nil⟩
  | cons c cs ih =>
    intro kv S S' ls h hok he
    rw [List.map_cons, Spec.Farfalle.Obj.run] at he
    split at he
    · cases he
    · rename_i e S1 l h1
      split at he
      · cases he
      · rename_i S2 ls' h2
        cases he
        obtain ⟨kv1, o, g1, g2, g3⟩ := h.step hC hM c (hok c List.mem_cons_self) h1
        obtain ⟨kv', os, k1, k2, k3⟩ := ih g3 (fun c hc => hok c (List.mem_cons_of_mem _ hc)) h2
        refine ⟨kv', (e, o) :: os, ?_, k2, .cons ⟨rfl, g2⟩ k3⟩
        simp only [Farfalle.run, Option.bind_eq_bind]
        rw [g1, Option.bind_some, k1, Option.bind_some]

/-- The last byte of the key with the padding bit. -/
theorem keyLastByte_spec (key : Bytes) (n : Nat) (hn : (n + 7) / 8 ≤ key.length) :
    ∃ b l, keyLastByte key n = some b ∧ Bits.DelimitedBy l b ∧
      (Bits.ofBytes key).take n = Bits.ofBytes (key.take (n / 8)) ++ l := by
  by_cases h8 : n % 8 = 0
  · obtain ⟨b, l, h1, h2, h3⟩ := padByte_spec key n hn (fun _ _ h => absurd h8 h)
    refine ⟨b, l, ?_, h2, h3⟩
    rw [padByte, if_neg (by omega)] at h1
    rw [keyLastByte, if_neg (by omega)]
    exact h1
  · have hi : n / 8 < key.length := by omega
    have hm := Nat.mod_lt n (by omega : 8 > 0)
    -- the key with its last byte masked
    let key' := key.set (n / 8) (key[n / 8] &&& BitVec.ofNat 8 (2 ^ (n % 8) - 1))
    have hg : key'[n / 8]? = some (key[n / 8] &&& BitVec.ofNat 8 (2 ^ (n % 8) - 1)) := by
      rw [List.getElem?_set_self hi]
    have hcl : Clean key' n := by
      intro x hx _
      rw [hg] at hx
      cases hx
      rw [BitVec.toNat_and, BitVec.toNat_ofNat,
        Nat.mod_eq_of_lt (Nat.lt_of_le_of_lt (Nat.sub_le _ _) (Nat.pow_lt_pow_right (by omega) hm : 2 ^ (n % 8) < 2 ^ 8))]
      have := Nat.and_le_right (n := key[n / 8].toNat) (m := 2 ^ (n % 8) - 1)
      have := Nat.two_pow_pos (n % 8)
      omega
    obtain ⟨b, l, h1, h2, h3⟩ := padByte_spec key' n (by rw [List.length_set]; exact hn) hcl
    have ht : key'.take (n / 8) = key.take (n / 8) := by rw [List.take_set_of_le (Nat.le_refl _)]
    refine ⟨b, l, ?_, h2, ?_⟩
    · rw [padByte, if_pos h8, head?_drop, hg] at h1
      rw [keyLastByte, if_pos h8, List.getElem?_eq_getElem hi]
      exact h1
    · have hsplit : ∀ key : Bytes, (Bits.ofBytes key).take n =
          Bits.ofBytes (key.take (n / 8)) ++ (Bits.ofBytes (key.drop (n / 8))).take (n % 8) := by
        intro key
        conv_lhs => rw [show n = 8 * (n / 8) + n % 8 by omega]
        rw [List.take_add, Bits.take_ofBytes, Bits.drop_ofBytes]
      have hx : (Bits.ofBytes (key.drop (n / 8))).take (n % 8) = (Bits.ofBytes (key'.drop (n / 8))).take (n % 8) := by
        have hi' : n / 8 < key'.length := by rw [List.length_set]; exact hi
        rw [List.drop_eq_getElem_cons hi, List.drop_eq_getElem_cons hi', Bits.ofBytes_cons,
          Bits.ofBytes_cons, List.take_append_of_le_length (by rw [Bits.length_ofByte]; omega),
          List.take_append_of_le_length (by rw [Bits.length_ofByte]; omega), List.getElem_set_self, ofByte_mask _ _ hm,
          List.take_append_of_le_length (by rw [List.length_take, Bits.length_ofByte]; omega), List.take_take,
          Nat.min_self]
      rw [hsplit, hx, ← ht, ← hsplit]
      exact h3

/-- The derivation of the mask: the instance represents a new object. -/
theorem maskDerivation_spec (hC : Valid C) (hM : Matches C P) (kv : Inst) (hs : Sized C kv) (key : Bytes) (n : Nat)
    (hk : (n + 7) / 8 ≤ key.length) (hn : n < P.b) :
    ∃ kv', maskDerivation C kv key n = some (0, kv') ∧
      Rep C P kv' (Spec.Farfalle.Obj.start P ((Bits.ofBytes key).take n)) := by
  have hw := hC.width_pos
  rw [hM.b] at hn
  obtain ⟨b, l, h1, h2, h3⟩ := keyLastByte_spec key n hk
  have hd : (key.take (n / 8)).length = n / 8 := by rw [List.length_take]; omega
  have hpl := length_padded hC (key.take (n / 8)) b
  have hdiv : n / 8 / C.width = 0 := Nat.div_eq_of_lt (by omega)
  rw [hd, hdiv, Nat.mod_eq_of_lt (by omega : n / 8 < C.width), Nat.zero_add, Nat.one_mul] at hpl
  have hset : Bytes.setAt (Bytes.setAt (Bytes.zeros C.width) 0 (key.take (n / 8))) (n / 8) [b] =
      key.take (n / 8) ++ [b] ++ Bytes.zeros (C.width - (n / 8 + 1)) := by
    have := Bytes.setAt_append (Bytes.zeros C.width) 0 (key.take (n / 8)) [b]
    rw [hd, Nat.zero_add] at this
    rw [this]
    apply List.ext_getElem?; intro i
    rw [Bytes.getElem?_setAt, List.length_append, hd, List.length_singleton, Nat.sub_zero, Nat.zero_add]
    unfold Bytes.zeros
    rw [List.getElem?_replicate]
    by_cases hi : i < n / 8 + 1
    · have hil : i < (key.take (n / 8) ++ [b]).length := by rw [List.length_append, hd, List.length_singleton]; exact hi
      rw [List.getElem?_append_left hil, if_pos (by omega), Option.map_some, if_pos (by omega),
        List.getD_eq_getElem?_getD, List.getElem?_eq_getElem hil]
      rfl
    · rw [List.getElem?_append_right (by rw [List.length_append, hd, List.length_singleton]; omega),
        List.length_append, hd, List.length_singleton, List.getElem?_replicate]
      by_cases hi2 : i < C.width
      · rw [if_pos hi2, if_pos (by omega), Option.map_some, if_neg (by omega)]
      · rw [if_neg hi2, if_neg (by omega)]; rfl
  have hpad := pad_spec hC hM (key.take (n / 8)) l b h2
  rw [hd, Nat.mod_eq_of_lt (by omega : n / 8 < C.width), ← h3] at hpad
  have hpm := hC.permute_len _ hpl
  refine ⟨{ kv with
    k := C.permute (key.take (n / 8) ++ [b] ++ Bytes.zeros (C.width - (n / 8 + 1)))
    kRoll := C.permute (key.take (n / 8) ++ [b] ++ Bytes.zeros (C.width - (n / 8 + 1)))
    xAccu := Bytes.zeros C.width
    phase := .compressing
    queueOffset := 0 }, ?_, ⟨hpm, hpm, Bytes.length_zeros _, hs.yAccu, hs.queue⟩, ?_, rfl, (_, _), [], rfl, AccOk.start hM _, by simp [eat],
    by rw [List.drop_nil]; exact Pend.nil hC rfl⟩
  · unfold maskDerivation
    rw [if_neg (by omega)]
    simp only [Option.bind_eq_bind]
    rw [SnP.readBuf_some (show n / 8 ≤ key.length by omega), Option.bind_some, h1, Option.bind_some, hset,
      overwrite_all hC hpl, Option.bind_some, Xoodyak.extractBytes_some (by omega), Option.bind_some]
    rw [Bytes.slice, List.drop_zero, List.take_of_length_le (Nat.le_of_eq hpm)]
  · change Bits.ofBytes (C.permute _) = P.pb (Spec.Farfalle.pad P.b _)
    rw [hM.pb _ hpl, hpad]

end Farfalle
