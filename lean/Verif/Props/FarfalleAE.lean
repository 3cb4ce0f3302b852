import Verif.Proofs.FarfalleSanse
import Verif.Props.Farfalle

/-!
# Properties C32 and C33: SANE and SANSE on Kravatte and Xoofff

`C` and `C'` are two configurations (any permutation code, any parallel paths) for the same instance `P` of Farfalle: the sender
and the receiver need not run the same build.
-/

namespace Spec.Farfalle

variable (P : Par)

/-- At the level of the specification, unwrapping gives back the plaintext and the same session. -/
theorem Sane.unwrap_wrap (S : Session) (A M : Bits) :
    Sane.unwrap P S A (Sane.wrap P S A M).2.1 (Sane.wrap P S A M).2.2 = ((Sane.wrap P S A M).1, some M) := by
  have hl : (xorBits M (Sane.keystream P S M.length)).length = M.length := by
    rw [_root_.Farfalle.length_xorBits, Sane.keystream, _root_.Farfalle.length_output, Nat.min_self]
  simp only [Sane.unwrap, Sane.wrap, hl, if_true]
  rw [_root_.Farfalle.xorBits_cancel _ _ (by rw [Sane.keystream, _root_.Farfalle.length_output])]

/-- Unwrapping succeeds with `M` only for what wrapping `M` gives. -/
theorem Sane.unwrap_iff (S : Session) (A D T M : Bits) :
    (Sane.unwrap P S A D T).2 = some M ↔ (Sane.wrap P S A M).2 = (D, T) := by
  have hl : (xorBits D (Sane.keystream P S D.length)).length = D.length := by
    rw [_root_.Farfalle.length_xorBits, Sane.keystream, _root_.Farfalle.length_output, Nat.min_self]
  constructor
  · intro h
    simp only [Sane.unwrap] at h
    split at h
    · rename_i ht
      cases h
      simp only [Sane.wrap, hl]
      rw [_root_.Farfalle.xorBits_cancel _ _ (by rw [Sane.keystream, _root_.Farfalle.length_output]), ht]
    · cases h
  · intro h
    have := Sane.unwrap_wrap P S A M
    rw [h] at this
    rw [this]

theorem Sanse.unwrap_wrap (S : Session) (A M : Bits) :
    Sanse.unwrap P S A (Sanse.wrap P S A M).2.1 (Sanse.wrap P S A M).2.2 = ((Sanse.wrap P S A M).1, some M) := by
  have hl : ∀ h T, (xorBits M (Sanse.keystream P S h T M.length)).length = M.length := by
    intro h T
    rw [_root_.Farfalle.length_xorBits, Sanse.keystream, _root_.Farfalle.length_output, Nat.min_self]
  have hm : ∀ h T, Sanse.meta S A (xorBits M (Sanse.keystream P S h T M.length)) = Sanse.meta S A M := by
    intro h T
    simp only [_root_.Farfalle.meta_eq, hl]
  simp only [Sanse.unwrap, Sanse.wrap, hl, hm]
  rw [_root_.Farfalle.xorBits_cancel _ _ (by rw [Sanse.keystream, _root_.Farfalle.length_output]), if_pos rfl]

theorem Sanse.unwrap_iff (S : Session) (A D T M : Bits) :
    (Sanse.unwrap P S A D T).2 = some M ↔ (Sanse.wrap P S A M).2 = (D, T) := by
  have hl : ∀ h T, (xorBits D (Sanse.keystream P S h T D.length)).length = D.length := by
    intro h T
    rw [_root_.Farfalle.length_xorBits, Sanse.keystream, _root_.Farfalle.length_output, Nat.min_self]
  constructor
  · intro h
    simp only [Sanse.unwrap] at h
    split at h
    · rename_i ht
      cases h
      simp only [Sanse.wrap, hl]
      rw [ht, _root_.Farfalle.meta_eq, _root_.Farfalle.meta_eq, hl,
        _root_.Farfalle.xorBits_cancel _ _ (by rw [Sanse.keystream, _root_.Farfalle.length_output])]
    · cases h
  · intro h
    have := Sanse.unwrap_wrap P S A M
    rw [h] at this
    rw [this]

end Spec.Farfalle

namespace Farfalle

variable {C C' : Cfg} {P : Spec.Farfalle.Par}

/-- A message: the plaintext buffer and its length in bits, the associated data and its length in bits. -/
structure Msg where
  pt : Bytes
  n : Nat
  ad : Bytes
  adLen : Nat

/-- The lengths lie in the buffers and do not overflow. -/
structure Msg.Ok (m : Msg) : Prop where
  n : (m.n + 7) / 8 ≤ m.pt.length
  lt : m.n + 7 < 2 ^ 64
  ad : (m.adLen + 7) / 8 ≤ m.ad.length

/-- The plaintext and the associated data as bits. -/
def Msg.ptBits (m : Msg) : Bits := (Bits.ofBytes m.pt).take m.n
def Msg.adBits (m : Msg) : Bits := (Bits.ofBytes m.ad).take m.adLen

/-- A sender wraps messages one after the other: the instance afterwards, and for each message return code, ciphertext and tag. -/
def sendAll (wrap : Sess → Bytes → Nat → Bytes → Nat → Option (Nat × Sess × Bytes × Bytes)) :
    Sess → List Msg → Option (Sess × List (Nat × Bytes × Bytes))
  | kp, [] => some (kp, [])
  | kp, m :: ms => do
    let (c, kp, ct, tag) ← wrap kp m.pt m.n m.ad m.adLen
    let (kp, os) ← sendAll wrap kp ms
    some (kp, (c, ct, tag) :: os)

/-- A receiver unwraps messages one after the other, with the lengths and the associated data of `ms`: the instance afterwards, and for
each message return code and plaintext buffer. -/
def receiveAll (unwrap : Sess → Bytes → Nat → Bytes → Nat → Bytes → Option (Nat × Sess × Bytes)) :
    Sess → List Msg → List (Nat × Bytes × Bytes) → Option (Sess × List (Nat × Bytes))
  | kp, m :: ms, (_, ct, tag) :: os => do
    let (c, kp, pt) ← unwrap kp ct m.n m.ad m.adLen tag
    let (kp, rs) ← receiveAll unwrap kp ms os
    some (kp, (c, pt) :: rs)
  | kp, _, _ => some (kp, [])

/-- What the specification says of the outputs of a session of SANE. -/
def Spec.saneAll (P : Spec.Farfalle.Par) : Spec.Farfalle.Session → List Msg → List (Bits × Bits)
  | _, [] => []
  | S, m :: ms => (Spec.Farfalle.Sane.wrap P S m.adBits m.ptBits).2 ::
      Spec.saneAll P (Spec.Farfalle.Sane.wrap P S m.adBits m.ptBits).1 ms

/-- What the specification says of the outputs of a session of SANSE. -/
def Spec.sanseAll (P : Spec.Farfalle.Par) : Spec.Farfalle.Session → List Msg → List (Bits × Bits)
  | _, [] => []
  | S, m :: ms => (Spec.Farfalle.Sanse.wrap P S m.adBits m.ptBits).2 ::
      Spec.sanseAll P (Spec.Farfalle.Sanse.wrap P S m.adBits m.ptBits).1 ms

/-- The output of `Wrap` is the expected ciphertext and tag, with return code 0. -/
def SentOk (o : Nat × Bytes × Bytes) (x : Bits × Bits) : Prop := o.1 = 0 ∧ Holds o.2.1 x.1 ∧ Bits.ofBytes o.2.2 = x.2

/-- The output of `Unwrap` is the plaintext, with return code 0. -/
def ReceivedOk (o : Nat × Bytes) (m : Msg) : Prop := o.1 = 0 ∧ Holds o.2 m.ptBits

theorem length_saneTag (S : Spec.Farfalle.Session) (A M : Bits) : (Spec.Farfalle.Sane.wrap P S A M).2.2.length = 128 := by
  simp only [Spec.Farfalle.Sane.wrap, length_output]; rfl

theorem length_sanseTag (S : Spec.Farfalle.Session) (A M : Bits) : (Spec.Farfalle.Sanse.wrap P S A M).2.2.length = 256 := by
  simp only [Spec.Farfalle.Sanse.wrap, length_output]; rfl

theorem length_saneCt (S : Spec.Farfalle.Session) (A M : Bits) : (Spec.Farfalle.Sane.wrap P S A M).2.1.length = M.length := by
  simp only [Spec.Farfalle.Sane.wrap, length_xorBits, Spec.Farfalle.Sane.keystream, length_output, Nat.min_self]

theorem length_sanseCt (S : Spec.Farfalle.Session) (A M : Bits) : (Spec.Farfalle.Sanse.wrap P S A M).2.1.length = M.length := by
  simp only [Spec.Farfalle.Sanse.wrap, length_xorBits, Spec.Farfalle.Sanse.keystream, length_output, Nat.min_self]

theorem sane_session (hC : Valid C) (hM : Matches C P) (hC' : Valid C') (hM' : Matches C' P) : ∀ (ms : List Msg) (kp kp' : Sess)
    (S : Spec.Farfalle.Session), SaneRep C P kp S → SaneRep C' P kp' S → (∀ m ∈ ms, m.Ok ∧ Clean m.ad m.adLen) →
    ∃ kp₁ kp₁' os rs, sendAll (saneWrap C) kp ms = some (kp₁, os) ∧ receiveAll (saneUnwrap C') kp' ms os = some (kp₁', rs) ∧
      List.Forall₂ SentOk os (Spec.saneAll P S ms) ∧ List.Forall₂ ReceivedOk rs ms ∧
      ∃ S', SaneRep C P kp₁ S' ∧ SaneRep C' P kp₁' S' := by
  intro ms
  induction ms with
  | nil => intro kp kp' S h h' _; exact ⟨kp, kp', [], [], rfl, rfl, .nil, .nil, S, h, h'⟩
  | cons m ms ih =>
    intro kp kp' S h h' hok
    obtain ⟨⟨hn, hlt, had⟩, hcl⟩ := hok m (List.mem_cons_self ..)
    obtain ⟨kq, ct, tag, g1, g2, g3, g4⟩ := saneWrap_spec hC hM h m.pt m.n hn hlt m.ad m.adLen had hcl
    have hcl' : (Spec.Farfalle.Sane.wrap P S m.adBits m.ptBits).2.1.length = m.n := by
      rw [length_saneCt, Msg.ptBits, length_take_ofBytes hn]
    have htl : tag.length = 16 := by
      have := congrArg List.length g3
      rw [Bits.length_ofBytes, length_saneTag] at this
      omega
    change Holds ct (Spec.Farfalle.Sane.wrap P S m.adBits m.ptBits).2.1 at g2
    have hl := g2.length; have hcc := g2.clean; have htk := g2.take
    rw [hcl'] at hl hcc htk
    obtain ⟨kq', c, pt, k1, k2, k3⟩ := saneUnwrap_spec hC' hM' h' ct m.n (by omega) hlt hcc m.ad m.adLen had hcl tag htl
    have hx := Spec.Farfalle.Sane.unwrap_wrap P S m.adBits m.ptBits
    change Returns c pt m.n (Spec.Farfalle.Sane.unwrap P S m.adBits _ _).2 at k2
    change SaneRep C' P kq' (Spec.Farfalle.Sane.unwrap P S m.adBits _ _).1 at k3
    rw [htk, g3] at k2 k3
    change Returns c pt m.n (Spec.Farfalle.Sane.unwrap P S m.adBits (Spec.Farfalle.Sane.wrap P S m.adBits m.ptBits).2.1
      (Spec.Farfalle.Sane.wrap P S m.adBits m.ptBits).2.2).2 at k2
    change SaneRep C' P kq' (Spec.Farfalle.Sane.unwrap P S m.adBits (Spec.Farfalle.Sane.wrap P S m.adBits m.ptBits).2.1
      (Spec.Farfalle.Sane.wrap P S m.adBits m.ptBits).2.2).1 at k3
    rw [hx] at k2 k3
    obtain ⟨kp₁, kp₁', os, rs, j1, j2, j3, j4, j5⟩ := ih kq kq' _ g4 k3 (fun x hx => hok x (List.mem_cons_of_mem _ hx))
    obtain ⟨M, hM1, hM2, hM3⟩ | ⟨hM1, _, _⟩ := k2
    · cases hM1
      refine ⟨kp₁, kp₁', (0, ct, tag) :: os, (c, pt) :: rs, ?_, ?_, .cons ⟨rfl, g2, g3⟩ j3, .cons ⟨hM2, hM3⟩ j4, j5⟩
      · simp only [sendAll, Option.bind_eq_bind]
        rw [g1, Option.bind_some, j1]
        rfl
      · simp only [receiveAll, Option.bind_eq_bind]
        rw [k1, Option.bind_some, j2]
        rfl
    · cases hM1

theorem sanse_session (hC : Valid C) (hM : Matches C P) (hC' : Valid C') (hM' : Matches C' P) : ∀ (ms : List Msg) (kp kp' : Sess)
    (S : Spec.Farfalle.Session), SanseRep C P kp S → SanseRep C' P kp' S → (∀ m ∈ ms, m.Ok) →
    ∃ kp₁ kp₁' os rs, sendAll (sanseWrap C) kp ms = some (kp₁, os) ∧ receiveAll (sanseUnwrap C') kp' ms os = some (kp₁', rs) ∧
      List.Forall₂ SentOk os (Spec.sanseAll P S ms) ∧ List.Forall₂ ReceivedOk rs ms ∧
      ∃ S', SanseRep C P kp₁ S' ∧ SanseRep C' P kp₁' S' := by
  intro ms
  induction ms with
  | nil => intro kp kp' S h h' _; exact ⟨kp, kp', [], [], rfl, rfl, .nil, .nil, S, h, h'⟩
  | cons m ms ih =>
    intro kp kp' S h h' hok
    obtain ⟨hn, hlt, had⟩ := hok m (List.mem_cons_self ..)
    obtain ⟨kq, ct, tag, g1, g2, g3, g4⟩ := sanseWrap_spec hC hM h m.pt m.n hn hlt m.ad m.adLen had
    have hcl' : (Spec.Farfalle.Sanse.wrap P S m.adBits m.ptBits).2.1.length = m.n := by
      rw [length_sanseCt, Msg.ptBits, length_take_ofBytes hn]
    have htl : tag.length = 32 := by
      have := congrArg List.length g3
      rw [Bits.length_ofBytes, length_sanseTag] at this
      omega
    change Holds ct (Spec.Farfalle.Sanse.wrap P S m.adBits m.ptBits).2.1 at g2
    have hl := g2.length; have htk := g2.take
    rw [hcl'] at hl htk
    obtain ⟨kq', c, pt, k1, k2, k3⟩ := sanseUnwrap_spec hC' hM' h' ct m.n (by omega) hlt m.ad m.adLen had tag htl
    have hx := Spec.Farfalle.Sanse.unwrap_wrap P S m.adBits m.ptBits
    rw [htk, g3] at k2 k3
    change Returns c pt m.n (Spec.Farfalle.Sanse.unwrap P S m.adBits (Spec.Farfalle.Sanse.wrap P S m.adBits m.ptBits).2.1
      (Spec.Farfalle.Sanse.wrap P S m.adBits m.ptBits).2.2).2 at k2
    change SanseRep C' P kq' (Spec.Farfalle.Sanse.unwrap P S m.adBits (Spec.Farfalle.Sanse.wrap P S m.adBits m.ptBits).2.1
      (Spec.Farfalle.Sanse.wrap P S m.adBits m.ptBits).2.2).1 at k3
    rw [hx] at k2 k3
    obtain ⟨kp₁, kp₁', os, rs, j1, j2, j3, j4, j5⟩ := ih kq kq' _ g4 k3 (fun x hx => hok x (List.mem_cons_of_mem _ hx))
    obtain ⟨M, hM1, hM2, hM3⟩ | ⟨hM1, _, _⟩ := k2
    · cases hM1
      refine ⟨kp₁, kp₁', (0, ct, tag) :: os, (c, pt) :: rs, ?_, ?_, .cons ⟨rfl, g2, g3⟩ j3, .cons ⟨hM2, hM3⟩ j4, j5⟩
      · simp only [sendAll, Option.bind_eq_bind]
        rw [g1, Option.bind_some, j1]
        rfl
      · simp only [receiveAll, Option.bind_eq_bind]
        rw [k1, Option.bind_some, j2]
        rfl
    · cases hM1

/-- C32: a sender and a receiver that start SANE with the same key and nonce get the same tag, and for any sequence of messages of any
bit lengths, each `Unwrap` of what `Wrap` gave returns 0 and the plaintext (unused bits of the last byte are 0).  The outputs of the sender
are those of the specification, and both end in the same state of the session. -/
theorem C32 (hC : Valid C) (hM : Matches C P) (hC' : Valid C') (hM' : Matches C' P) (kp kp' : Sess) (hs : Sized C kp.kv)
    (hs' : Sized C' kp'.kv) (key : Bytes) (keyLen : Nat) (hk : (keyLen + 7) / 8 ≤ key.length) (hkb : keyLen < P.b)
    (nonce : Bytes) (nonceLen : Nat) (hn : (nonceLen + 7) / 8 ≤ nonce.length) (hc : Clean nonce nonceLen) (ms : List Msg)
    (hms : ∀ m ∈ ms, m.Ok ∧ Clean m.ad m.adLen) :
    ∃ kp₁ kp₁' kp₂ kp₂' tag os rs, saneInitialize C kp key keyLen nonce nonceLen = some (0, kp₁, tag) ∧
      saneInitialize C' kp' key keyLen nonce nonceLen = some (0, kp₁', tag) ∧
      Bits.ofBytes tag = (Spec.Farfalle.Sane.start P ((Bits.ofBytes key).take keyLen) ((Bits.ofBytes nonce).take nonceLen)).2 ∧
      sendAll (saneWrap C) kp₁ ms = some (kp₂, os) ∧ receiveAll (saneUnwrap C') kp₁' ms os = some (kp₂', rs) ∧
      List.Forall₂ SentOk os (Spec.saneAll P
        (Spec.Farfalle.Sane.start P ((Bits.ofBytes key).take keyLen) ((Bits.ofBytes nonce).take nonceLen)).1 ms) ∧
      List.Forall₂ ReceivedOk rs ms ∧ ∃ S, SaneRep C P kp₂ S ∧ SaneRep C' P kp₂' S := by
  obtain ⟨kp₁, tag, h1, h2, h3⟩ := saneInitialize_spec hC hM kp hs key keyLen hk hkb nonce nonceLen hn hc
  obtain ⟨kp₁', tag', h1', h2', h3'⟩ := saneInitialize_spec hC' hM' kp' hs' key keyLen hk hkb nonce nonceLen hn hc
  have ht : tag' = tag := Bits.ofBytes_injective (h2'.trans h2.symm)
  subst ht
  obtain ⟨kp₂, kp₂', os, rs, j1, j2, j3, j4, j5⟩ := sane_session hC hM hC' hM' ms kp₁ kp₁' _ h3 h3' hms
  exact ⟨kp₁, kp₁', kp₂, kp₂', tag', os, rs, h1, h1', h2, j1, j2, j3, j4, j5⟩

/-- C32: for a receiver and a sender in the same state of a session, and any ciphertext, associated data and tag, `Unwrap` returns 0 or
1.  It returns 0 with plaintext `pt` in the buffer only if `Wrap` of `pt` gives that ciphertext and that tag; it returns 1 only if there is
no plaintext for which `Wrap` does, and then the buffer is zero. -/
theorem C32_reject (hC : Valid C) (hM : Matches C P) (hC' : Valid C') (hM' : Matches C' P) (kp kp' : Sess)
    (S : Spec.Farfalle.Session) (h : SaneRep C P kp S) (h' : SaneRep C' P kp' S)
    (ct : Bytes) (n : Nat) (hn : (n + 7) / 8 = ct.length) (hlt : n + 7 < 2 ^ 64) (hctc : Clean ct n) (ad : Bytes) (adLen : Nat)
    (hadn : (adLen + 7) / 8 ≤ ad.length) (hadc : Clean ad adLen) (tag : Bytes) (htag : tag.length = 16) :
    ∃ kp₁' c pt, saneUnwrap C' kp' ct n ad adLen tag = some (c, kp₁', pt) ∧ pt.length = (n + 7) / 8 ∧
      ((c = 0 ∧ Clean pt n ∧ ∃ kp₁, saneWrap C kp pt n ad adLen = some (0, kp₁, ct, tag)) ∨
       (c = 1 ∧ pt = Bytes.zeros ((n + 7) / 8) ∧
         ∀ (pt₀ : Bytes) (kp₁ : Sess), (n + 7) / 8 ≤ pt₀.length → saneWrap C kp pt₀ n ad adLen ≠ some (0, kp₁, ct, tag))) := by
  have hhold : Holds ct ((Bits.ofBytes ct).take n) := hctc.holds hn
  obtain ⟨kp₁', c, pt, k1, k2, k3⟩ := saneUnwrap_spec hC' hM' h' ct n (by omega) hlt hctc ad adLen hadn hadc tag htag
  have hw : ∀ pt₀ : Bytes, (n + 7) / 8 ≤ pt₀.length →
      ((Spec.Farfalle.Sane.wrap P S ((Bits.ofBytes ad).take adLen) ((Bits.ofBytes pt₀).take n)).2 =
        ((Bits.ofBytes ct).take n, Bits.ofBytes tag) ↔ ∃ kp₁, saneWrap C kp pt₀ n ad adLen = some (0, kp₁, ct, tag)) := by
    intro pt₀ hp
    obtain ⟨kq, ct', tag', g1, g2, g3, _⟩ := saneWrap_spec hC hM h pt₀ n hp hlt ad adLen hadn hadc
    constructor
    · intro he
      rw [he] at g2 g3
      have e1 : ct' = ct := Bits.ofBytes_injective (g2.trans hhold.symm)
      have e2 : tag' = tag := Bits.ofBytes_injective g3
      exact ⟨kq, by rw [g1, e1, e2]⟩
    · rintro ⟨kq', he⟩
      rw [g1] at he
      simp only [Option.some.injEq, Prod.mk.injEq, true_and] at he
      obtain ⟨_, e1, e2⟩ := he
      subst e1; subst e2
      have hcl := length_saneCt (P := P) S ((Bits.ofBytes ad).take adLen) ((Bits.ofBytes pt₀).take n)
      rw [length_take_ofBytes hp] at hcl
      have := g2.take
      rw [hcl] at this
      rw [this, g3]
  obtain ⟨M, hM1, hM2, hM3⟩ | ⟨hM1, hM2, hM3⟩ := k2
  · have he := (Spec.Farfalle.Sane.unwrap_iff P S _ _ _ _).mp hM1
    have hl : M.length = n := by
      have := length_saneCt (P := P) S ((Bits.ofBytes ad).take adLen) M
      rw [he] at this
      rw [← this, length_take_ofBytes (by omega)]
    have hpl := hM3.length; have hpc := hM3.clean; have hpt := hM3.take
    rw [hl] at hpl hpc hpt
    refine ⟨kp₁', c, pt, k1, hpl, .inl ⟨hM2, hpc, (hw pt (by omega)).mp ?_⟩⟩
    rw [hpt]; exact he
  · refine ⟨kp₁', c, pt, k1, by rw [hM3, Bytes.length_zeros], .inr ⟨hM2, hM3, fun pt₀ kp₁ hp he => ?_⟩⟩
    have := (Spec.Farfalle.Sane.unwrap_iff P S _ _ _ _).mpr ((hw pt₀ hp).mpr ⟨kp₁, he⟩)
    rw [hM1] at this
    cases this

/-- C33: a sender and a receiver that start SANSE with the same key: for any sequence of messages of any bit lengths, each `Unwrap` of what
`Wrap` gave returns 0 and the plaintext.  The outputs of the sender are those of the specification, and both end in the same state of
the session. -/
theorem C33 (hC : Valid C) (hM : Matches C P) (hC' : Valid C') (hM' : Matches C' P) (kp kp' : Sess) (hs : Sized C kp.kv)
    (hs' : Sized C' kp'.kv) (key : Bytes) (keyLen : Nat) (hk : (keyLen + 7) / 8 ≤ key.length) (hkb : keyLen < P.b)
    (ms : List Msg) (hms : ∀ m ∈ ms, m.Ok) :
    ∃ kp₁ kp₁' kp₂ kp₂' os rs, sanseInitialize C kp key keyLen = some (0, kp₁) ∧ sanseInitialize C' kp' key keyLen = some (0, kp₁') ∧
      sendAll (sanseWrap C) kp₁ ms = some (kp₂, os) ∧ receiveAll (sanseUnwrap C') kp₁' ms os = some (kp₂', rs) ∧
      List.Forall₂ SentOk os (Spec.sanseAll P (Spec.Farfalle.Sanse.start P ((Bits.ofBytes key).take keyLen)) ms) ∧
      List.Forall₂ ReceivedOk rs ms ∧ ∃ S, SanseRep C P kp₂ S ∧ SanseRep C' P kp₂' S := by
  obtain ⟨kp₁, h1, h3⟩ := sanseInitialize_spec hC hM kp hs key keyLen hk hkb
  obtain ⟨kp₁', h1', h3'⟩ := sanseInitialize_spec hC' hM' kp' hs' key keyLen hk hkb
  obtain ⟨kp₂, kp₂', os, rs, j1, j2, j3, j4, j5⟩ := sanse_session hC hM hC' hM' ms kp₁ kp₁' _ h3 h3' hms
  exact ⟨kp₁, kp₁', kp₂, kp₂', os, rs, h1, h1', j1, j2, j3, j4, j5⟩

/-- C33: for a receiver and a sender in the same state of a session, and any ciphertext, associated data and tag, `Unwrap` returns 0 or
1.  It returns 0 with plaintext `pt` in the buffer only if `Wrap` of `pt` gives that tag and the bits of that ciphertext; it returns 1 only
if there is no plaintext for which `Wrap` does, and then the buffer is zero. -/
theorem C33_reject (hC : Valid C) (hM : Matches C P) (hC' : Valid C') (hM' : Matches C' P) (kp kp' : Sess)
    (S : Spec.Farfalle.Session) (h : SanseRep C P kp S) (h' : SanseRep C' P kp' S)
    (ct : Bytes) (n : Nat) (hn : (n + 7) / 8 ≤ ct.length) (hlt : n + 7 < 2 ^ 64) (ad : Bytes) (adLen : Nat)
    (hadn : (adLen + 7) / 8 ≤ ad.length) (tag : Bytes) (htag : tag.length = 32) :
    ∃ kp₁' c pt, sanseUnwrap C' kp' ct n ad adLen tag = some (c, kp₁', pt) ∧ pt.length = (n + 7) / 8 ∧
      ((c = 0 ∧ Clean pt n ∧ ∃ kp₁ ct₁, sanseWrap C kp pt n ad adLen = some (0, kp₁, ct₁, tag) ∧
          (Bits.ofBytes ct₁).take n = (Bits.ofBytes ct).take n) ∨
       (c = 1 ∧ pt = Bytes.zeros ((n + 7) / 8) ∧ ∀ (pt₀ ct₁ : Bytes) (kp₁ : Sess), (n + 7) / 8 ≤ pt₀.length →
          sanseWrap C kp pt₀ n ad adLen = some (0, kp₁, ct₁, tag) → (Bits.ofBytes ct₁).take n ≠ (Bits.ofBytes ct).take n)) := by
  obtain ⟨kp₁', c, pt, k1, k2, k3⟩ := sanseUnwrap_spec hC' hM' h' ct n hn hlt ad adLen hadn tag htag
  have hw : ∀ pt₀ : Bytes, (n + 7) / 8 ≤ pt₀.length →
      ((Spec.Farfalle.Sanse.wrap P S ((Bits.ofBytes ad).take adLen) ((Bits.ofBytes pt₀).take n)).2 =
        ((Bits.ofBytes ct).take n, Bits.ofBytes tag) ↔ ∃ kp₁ ct₁, sanseWrap C kp pt₀ n ad adLen = some (0, kp₁, ct₁, tag) ∧
          (Bits.ofBytes ct₁).take n = (Bits.ofBytes ct).take n) := by
    intro pt₀ hp
    obtain ⟨kq, ct', tag', g1, g2, g3, _⟩ := sanseWrap_spec hC hM h pt₀ n hp hlt ad adLen hadn
    have hcl := length_sanseCt (P := P) S ((Bits.ofBytes ad).take adLen) ((Bits.ofBytes pt₀).take n)
    rw [length_take_ofBytes hp] at hcl
    have htk := g2.take
    rw [hcl] at htk
    constructor
    · intro he
      rw [he] at g3 htk
      have e2 : tag' = tag := Bits.ofBytes_injective g3
      exact ⟨kq, ct', by rw [g1, e2], htk⟩
    · rintro ⟨kq', ct₁, he, he'⟩
      rw [g1] at he
      simp only [Option.some.injEq, Prod.mk.injEq, true_and] at he
      obtain ⟨_, e1, e2⟩ := he
      subst e1; subst e2
      rw [← he', htk, g3]
  obtain ⟨M, hM1, hM2, hM3⟩ | ⟨hM1, hM2, hM3⟩ := k2
  · have he := (Spec.Farfalle.Sanse.unwrap_iff P S _ _ _ _).mp hM1
    have hl : M.length = n := by
      have := length_sanseCt (P := P) S ((Bits.ofBytes ad).take adLen) M
      rw [he] at this
      rw [← this, length_take_ofBytes (by omega)]
    have hpl := hM3.length; have hpc := hM3.clean; have hpt := hM3.take
    rw [hl] at hpl hpc hpt
    refine ⟨kp₁', c, pt, k1, hpl, .inl ⟨hM2, hpc, (hw pt (by omega)).mp ?_⟩⟩
    rw [hpt]; exact he
  · refine ⟨kp₁', c, pt, k1, by rw [hM3, Bytes.length_zeros], .inr ⟨hM2, hM3, fun pt₀ ct₁ kp₁ hp he he' => ?_⟩⟩
    have := (Spec.Farfalle.Sanse.unwrap_iff P S _ _ _ _).mpr ((hw pt₀ hp).mpr ⟨kp₁, ct₁, he, he'⟩)
    rw [hM1] at this
    cases this

/-! ## The last byte of associated data -/

theorem compress_zero (kv : Inst) (d d' : Bytes) (hw : 0 < C.width) : compress C kv d 0 {} = compress C kv d' 0 {} := by
  have hr : ∀ (kv : Inst) (d : Bytes), compressRest C kv d 0 false = some (0, kv) := by
    intro kv d
    rw [compressRest, if_neg (by simp; omega), if_neg (by simp)]
  have hq : ∀ (kv : Inst) (d d' : Bytes), compressQueued C kv d 0 false = compressQueued C kv d' 0 false := by
    intro kv d d'
    simp only [compressQueued, Nat.zero_min, Option.bind_eq_bind]
    rw [SnP.readBuf_some (Nat.zero_le _), SnP.readBuf_some (Nat.zero_le _)]
    simp [hr]
  simp only [compress, hr, hq _ d d']

/-- C44, violated by SANE: associated data of `r` bits (`r` from 1 to 6) whose last byte has the next bit set is added to the history as
the string of a ciphertext, not as the string of associated data: the stray bit takes the place of the separation bit. -/
theorem C44_sane_collision (hw : 0 < C.width) (kv : Inst) (e r : Nat) (h1 : 1 ≤ r) (h6 : r ≤ 6) (d : Byte) (hd : d.toNat < 2 ^ r) :
    saneAddToHistory C kv e [BitVec.ofNat 8 (d.toNat + 2 ^ r)] r 0 = saneAddToHistory C kv e [d] r 1 := by
  have hr : r % 8 = r := by omega
  have h0 : r / 8 = 0 := by omega
  have hp : 2 ^ r ≤ 2 ^ 6 := Nat.pow_le_pow_right (by omega) h6
  have hor : d.toNat + 2 ^ r = d.toNat ||| 1 <<< r := by
    have := Nat.two_pow_add_eq_or_of_lt hd 1
    rw [Nat.mul_one] at this
    rw [Nat.add_comm, this, Nat.or_comm, Nat.shiftLeft_eq, Nat.one_mul]
  simp only [saneAddToHistory, hr, h0, Nat.zero_mul, Option.bind_eq_bind]
  rw [compress_zero (C := C) kv _ [d] hw]
  congr 1
  funext x
  simp only [List.getElem?_cons_zero, Option.bind_some, if_pos h6, BitVec.toNat_ofNat,
    Nat.mod_eq_of_lt (show d.toNat + 2 ^ r < 2 ^ 8 by omega)]
  rw [hor]
  simp [show ¬r = 0 by omega]

/-- C44 holds for SANSE: the unused bits of the last bytes of the plaintext and of the associated data have no influence. -/
theorem C44_sanse (hC : Valid C) (hM : Matches C P) {kp : Sess} {S : Spec.Farfalle.Session} (h : SanseRep C P kp S)
    (m m' : Msg) (hm : m.Ok) (hm' : m'.Ok) (hp : m.ptBits = m'.ptBits)
    (hab : m.adBits = m'.adBits) :
    ∃ k k' ct tag, sanseWrap C kp m.pt m.n m.ad m.adLen = some (0, k, ct, tag) ∧
      sanseWrap C kp m'.pt m'.n m'.ad m'.adLen = some (0, k', ct, tag) := by
  obtain ⟨k, ct, tag, g1, g2, g3, _⟩ := sanseWrap_spec hC hM h m.pt m.n hm.n hm.lt m.ad m.adLen hm.ad
  obtain ⟨k', ct', tag', g1', g2', g3', _⟩ := sanseWrap_spec hC hM h m'.pt m'.n hm'.n hm'.lt m'.ad m'.adLen hm'.ad
  rw [Msg.ptBits, Msg.ptBits] at hp
  rw [Msg.adBits, Msg.adBits] at hab
  rw [hp, hab] at g2 g3
  refine ⟨k, k', ct, tag, g1, ?_⟩
  rw [g1', Bits.ofBytes_injective (g2'.trans g2.symm), Bits.ofBytes_injective (g3'.trans g3.symm)]

/-! ## The hypotheses can be met -/

/-- Two messages that meet the hypotheses of C32: 13 bits with 3 bits of associated data, and no text with 8 bits of associated data. -/
example : ∀ m ∈ [(⟨[0x5A, 0xFF], 13, [0x05], 3⟩ : Msg), ⟨[], 0, [0xC3], 8⟩], m.Ok ∧ Clean m.ad m.adLen := by
  intro m hm
  simp only [List.mem_cons, List.not_mem_nil, or_false] at hm
  rcases hm with rfl | rfl
  · refine ⟨⟨by decide, by decide, by decide⟩, ?_⟩
    intro x hx _
    simp at hx
    subst hx
    decide
  · exact ⟨⟨by decide, by decide, by decide⟩, fun x hx h => by simp at h⟩

/-- For a 12-bit nonce and a 100-bit key, Kravatte on both sides, one with parallel paths and one without: the session of C32 starts
(its conclusion gives the states that C32_reject asks for). -/
example : ∃ kp₁ kp₁' S, SaneRep (Kravatte.cfg (KeccakP1600.Ref.permuteNrounds 6) (Bytes.zeros 200) [.plSnP 4]) Spec.Kravatte.par kp₁ S ∧
    SaneRep (Kravatte.cfg (KeccakP1600.Ref.permuteNrounds 6) (Bytes.zeros 200) []) Spec.Kravatte.par kp₁' S := by
  obtain ⟨v1, m1⟩ := kravatte_ok _ (C31_kravatte _ (.inl rfl)) _ (Bytes.length_zeros 200) [.plSnP 4] (by
    intro p hp
    simp only [List.mem_cons, List.not_mem_nil, or_false] at hp
    subst hp
    simp [PathOk])
  obtain ⟨v2, m2⟩ := kravatte_ok _ (C31_kravatte _ (.inl rfl)) _ (Bytes.length_zeros 200) [] (by simp)
  obtain ⟨_, _, kp₂, kp₂', _, _, _, _, _, _, _, _, _, _, S, h⟩ := C32 v1 m1 v2 m2 ⟨blank 200, 0⟩ ⟨blank 200, 0⟩
    (by constructor <;> exact Bytes.length_zeros 200) (by constructor <;> exact Bytes.length_zeros 200)
    (Bytes.zeros 13) 100 (by simp) (by decide) [0x12, 0x03] 12 (by decide)
    (by intro x hx _; simp at hx; subst hx; decide) [] (by simp)
  exact ⟨kp₂, kp₂', S, h⟩

end Farfalle
