import Verif.Proofs.XoodyakSession
import Verif.Props.Xoodoo

/-!
# Properties C25, C26, C27 and C28: Xoodyak

`f` is the permutation, any function that maps 48 bytes to 48 bytes (for the two implementations of Xoodoo this is
C42); `full` says whether the full-block functions are used.  `WF` describes the instances the code can be in;
`C28` proves that these are all instances that calls can lead to.
-/

namespace Xoodyak

open Spec.Cyclist (Op)

/-- How an instance of the code represents an object of the specification. -/
def Represents (i : Inst) (S : Spec.Cyclist.St) : Prop :=
  i.state = S.s ∧ (i.phase = PhaseUp ↔ S.up = true) ∧ (i.phase = PhaseDown ↔ S.up = false) ∧
  (i.mode = ModeKeyed ↔ S.keyed = true) ∧ (i.mode = ModeHash ↔ S.keyed = false)

theorem represents_ofSt (S : Spec.Cyclist.St) : Represents (ofSt S) S := by
  obtain ⟨s, u, k⟩ := S
  cases u <;> cases k <;> simp [Represents, ofSt, PhaseUp, PhaseDown, ModeKeyed, ModeHash]

/-- C26: for every key, identifier and counter (within the limit on the key and the identifier), every script of
calls and both settings of `full`, the code does not fail, each call writes what the specification outputs, and
the instance represents the object of the specification after the script (take prefixes of the script for the
instances in between). -/
theorem C26 (f : Bytes → Bytes) (hf : ∀ s : Bytes, s.length = 48 → (f s).length = 48) (full : Bool)
    (K ID counter : Bytes) (h : K = [] ∨ K.length + ID.length ≤ 43) (ops : List Op) :
    ∃ i i', initialize' f full K ID counter = some i ∧ Represents i (Spec.Cyclist.cyclist f K ID counter) ∧
      run f full i ops = some (i', (Spec.Cyclist.run f (Spec.Cyclist.cyclist f K ID counter) ops).2) ∧
      Represents i' (Spec.Cyclist.run f (Spec.Cyclist.cyclist f K ID counter) ops).1 := by
  obtain ⟨h1, h2⟩ := initialize_eq hf full K ID counter h
  obtain ⟨g1, g2, g3⟩ := run_eq hf full ops _ h2
  exact ⟨_, _, h1, represents_ofSt _, g1, represents_ofSt _⟩

/-- `Xoodoo_Permute_12rounds` of the optimised implementation, on the byte array its words represent. -/
def optPermute12 (s : Bytes) : Bytes := Xoodoo.bytesOfLanes (Xoodoo.Opt.permute12 (Xoodoo.lanesOfBytes s))

/-- C26 for Xoodyak: each implementation of Xoodoo in the code is a permutation `f` that is Xoodoo[12] on bit strings
of 384 bits, and with it the code computes Cyclist over `f`. -/
theorem C26_xoodyak (f : Bytes → Bytes) (hf : f = Xoodoo.Ref.permute12 ∨ f = optPermute12) :
    (∀ s : Bytes, s.length = 48 → (f s).length = 48 ∧
      Bits.ofBytes (f s) = Spec.Xoodoo.xoodoo 12 (Bits.ofBytes s)) ∧
    ∀ (full : Bool) (K ID counter : Bytes), K = [] ∨ K.length + ID.length ≤ 43 → ∀ ops : List Op,
      ∃ i i', initialize' f full K ID counter = some i ∧
        run f full i ops = some (i', (Spec.Cyclist.run f (Spec.Cyclist.cyclist f K ID counter) ops).2) := by
  have key : ∀ s : Bytes, s.length = 48 → (f s).length = 48 ∧
      Bits.ofBytes (f s) = Spec.Xoodoo.xoodoo 12 (Bits.ofBytes s) := by
    intro s hs
    rcases hf with hf | hf
    · subst hf
      have h := Xoodoo.C42_ref s hs
      rw [h.2.2]
      exact h.1 12 (by decide)
    · subst hf
      refine ⟨Xoodoo.length_bytesOfLanes _, ?_⟩
      have h := (Xoodoo.C42_spec (Xoodoo.lanesOfBytes s)).2.2
      rw [Xoodoo.bytesOfLanes_lanesOfBytes s hs] at h
      exact h
  refine ⟨key, fun full K ID counter h ops => ?_⟩
  obtain ⟨i, i', h1, _, h3, _⟩ := C26 f (fun s hs => (key s hs).1) full K ID counter h ops
  exact ⟨i, i', h1, h3⟩

/-- The hypotheses can be met: a key and an identifier of 43 bytes together, and a keyless object. -/
example : ∃ i i' os, initialize' optPermute12 true (List.replicate 32 7) (List.replicate 11 1) [1, 2] = some i ∧
    run optPermute12 true i [.absorb (List.replicate 100 3), .encrypt (List.replicate 60 4), .ratchet, .squeeze 33] =
      some (i', os) := by
  obtain ⟨i, i', h1, h2⟩ := (C26_xoodyak optPermute12 (Or.inr rfl)).2 true (List.replicate 32 7) (List.replicate 11 1)
    [1, 2] (Or.inr (by decide))
    [.absorb (List.replicate 100 3), .encrypt (List.replicate 60 4), .ratchet, .squeeze 33]
  exact ⟨i, i', _, h1, h2⟩

/-- C28: `Cyclist_Initialize` stays within its buffers exactly if there is no key or the key and the identifier
together have at most 43 bytes. -/
theorem C28_init (f : Bytes → Bytes) (hf : ∀ s : Bytes, s.length = 48 → (f s).length = 48) (full : Bool)
    (K ID counter : Bytes) :
    (∃ i, initialize' f full K ID counter = some i) ↔ (K = [] ∨ K.length + ID.length ≤ 43) := by
  constructor
  · rintro ⟨i, hi⟩
    by_cases hK : K = []
    · exact Or.inl hK
    · refine Or.inr (Nat.le_of_not_lt fun h => ?_)
      rw [initialize_none full K ID counter hK h] at hi
      cases hi
  · intro h
    exact ⟨_, (initialize_eq hf full K ID counter h).1⟩

/-- C28: an instance that `Cyclist_Initialize` returns is well-formed, and every call on a well-formed instance,
whatever its arguments, stays within the buffers and the state (it is not `none`) and leaves a well-formed instance,
in the same mode. -/
theorem C28 (f : Bytes → Bytes) (hf : ∀ s : Bytes, s.length = 48 → (f s).length = 48) (full : Bool) :
    (∀ K ID counter i, initialize' f full K ID counter = some i → WF i) ∧
    (∀ i, WF i → ∀ op, ∃ i' o, call f full i op = some (i', o) ∧ WF i' ∧ i'.mode = i.mode) := by
  constructor
  · intro K ID counter i hi
    have h := (C28_init f hf full K ID counter).1 ⟨i, hi⟩
    obtain ⟨h1, h2⟩ := initialize_eq hf full K ID counter h
    rw [h1] at hi
    cases hi
    exact WF_ofSt _ h2
  · intro i hi op
    obtain ⟨S, hS, rfl⟩ := hi.exists
    obtain ⟨h1, h2, h3⟩ := call_eq hf full S hS op
    refine ⟨_, _, h1, WF_ofSt _ h2, ?_⟩
    simp only [ofSt, h3]

/-- C28: hence no sequence of calls after a successful `Cyclist_Initialize` leaves the buffers or the state. -/
theorem C28_run (f : Bytes → Bytes) (hf : ∀ s : Bytes, s.length = 48 → (f s).length = 48) (full : Bool)
    (K ID counter : Bytes) (i : Inst) (hi : initialize' f full K ID counter = some i) (ops : List Op) :
    ∃ i' os, run f full i ops = some (i', os) ∧ WF i' := by
  obtain ⟨S, hS, rfl⟩ := ((C28 f hf full).1 K ID counter i hi).exists
  obtain ⟨h1, h2, _⟩ := run_eq hf full ops S hS
  exact ⟨_, _, h1, WF_ofSt _ h2⟩

/-- A key one byte too long overflows the buffer of `Cyclist_AbsorbKey`. -/
example (f : Bytes → Bytes) : initialize' f true (List.replicate 43 0) [1] [] = none :=
  initialize_none true _ _ _ (by decide) (by decide)

/-! ### C25 -/

/-- C25: from any well-formed instance, whatever either side uses the full-block functions or not, decrypting what
`Encrypt` has written gives back the plaintext and the same instance, and the other way round; the text written is
as long as the text read. -/
theorem C25 (f : Bytes → Bytes) (hf : ∀ s : Bytes, s.length = 48 → (f s).length = 48) (full full' : Bool) (i : Inst)
    (hi : WF i) (I : Bytes) :
    (∃ i' C, encrypt f full i I = some (i', C) ∧ C.length = I.length ∧ decrypt f full' i C = some (i', I)) ∧
    (∃ i' P, decrypt f full i I = some (i', P) ∧ P.length = I.length ∧ encrypt f full' i P = some (i', I)) := by
  obtain ⟨S, hS, rfl⟩ := hi.exists
  refine ⟨?_, ?_⟩
  · obtain ⟨l, h⟩ := Spec.Cyclist.crypt_inverse hf false S hS I
    refine ⟨_, _, (crypt_eq hf full false S hS I).1, l, ?_⟩
    rw [decrypt, (crypt_eq hf full' true S hS _).1, show true = !false from rfl, h]
  · obtain ⟨l, h⟩ := Spec.Cyclist.crypt_inverse hf true S hS I
    refine ⟨_, _, (crypt_eq hf full true S hS I).1, l, ?_⟩
    rw [encrypt, (crypt_eq hf full' false S hS _).1, show false = !true from rfl, h]

/-- What the other party of a session does for a call of the first party that wrote `out`: it decrypts what was
encrypted, encrypts what the first one decrypts, and makes the same call otherwise. -/
def mirror : Op → Bytes → Op
  | .encrypt _, out => .decrypt out
  | .decrypt _, out => .encrypt out
  | op, _ => op

/-- What the other party should get: the text the first one processed, and the same output otherwise. -/
def expected : Op → Bytes → Bytes
  | .encrypt P, _ => P
  | .decrypt C, _ => C
  | _, out => out

/-- C25 (sessions): two parties whose instances are equal run a session, any interleaving of calls, one encrypting what
the other decrypts; the second party gets back every text, all other outputs agree, and both end with equal
instances. -/
theorem C25_session (f : Bytes → Bytes) (hf : ∀ s : Bytes, s.length = 48 → (f s).length = 48) (full full' : Bool)
    (i : Inst) (hi : WF i) (ops : List Op) :
    ∃ i' outs, run f full i ops = some (i', outs) ∧ outs.length = ops.length ∧
      run f full' i (List.zipWith mirror ops outs) = some (i', List.zipWith expected ops outs) := by
  induction ops generalizing i with
  | nil => exact ⟨i, [], rfl, rfl, rfl⟩
  | cons op ops ih =>
    have key : ∃ i₁ o, call f full i op = some (i₁, o) ∧ WF i₁ ∧
        call f full' i (mirror op o) = some (i₁, expected op o) := by
      obtain ⟨i₁, o, h1, h2, _⟩ := (C28 f hf full).2 i hi op
      refine ⟨i₁, o, h1, h2, ?_⟩
      have same : call f full' i op = call f full i op := by
        obtain ⟨S, hS, rfl⟩ := hi.exists
        rw [(call_eq hf full S hS op).1, (call_eq hf full' S hS op).1]
      cases op with
      | encrypt P =>
        obtain ⟨i₂, C, g1, _, g3⟩ := (C25 f hf full full' i hi P).1
        rw [call, g1] at h1; cases h1
        exact g3
      | decrypt C =>
        obtain ⟨i₂, P, g1, _, g3⟩ := (C25 f hf full full' i hi C).2
        rw [call, g1] at h1; cases h1
        exact g3
      | absorb X => exact same.trans h1
      | squeeze l => exact same.trans h1
      | squeezeKey l => exact same.trans h1
      | ratchet => exact same.trans h1
    obtain ⟨i₁, o, h1, h2, h3⟩ := key
    obtain ⟨i', outs, g1, g2, g3⟩ := ih i₁ h2
    refine ⟨i', o :: outs, ?_, by simp [g2], ?_⟩
    · rw [run, h1]; simp only; rw [g1]
    · rw [List.zipWith_cons_cons, List.zipWith_cons_cons, run, h3]; simp only; rw [g3]

/-- Keyed instances are well-formed. -/
example : ∃ i, initialize' Xoodoo.Ref.permute12 false (List.replicate 16 1) [] [] = some i ∧ WF i ∧
    i.mode = ModeKeyed := by
  have hf : ∀ s : Bytes, s.length = 48 → (Xoodoo.Ref.permute12 s).length = 48 := fun s hs =>
    (((C26_xoodyak _ (Or.inl rfl)).1) s hs).1
  have h := initialize_eq hf false (List.replicate 16 1) [] [] (Or.inr (by decide))
  exact ⟨_, h.1, WF_ofSt _ h.2, by rw [mode_keyed]; rfl⟩

/-! ### C27 -/

/-- C27: the two ways of compiling the code give the same result for every call on every well-formed instance. -/
theorem C27 (f : Bytes → Bytes) (hf : ∀ s : Bytes, s.length = 48 → (f s).length = 48) (i : Inst) (hi : WF i) (op : Op) :
    call f true i op = call f false i op := by
  obtain ⟨S, hS, rfl⟩ := hi.exists
  rw [(call_eq hf true S hS op).1, (call_eq hf false S hS op).1]

theorem full_count {r n k : Nat} (hr : 0 < r) (h1 : k ≤ n) (h2 : n - k < r) (h3 : r ∣ k) : k = n / r * r := by
  obtain ⟨q, rfl⟩ := h3
  have : n / r = q := by
    rw [Nat.div_eq_of_lt_le]
    · rw [Nat.mul_comm]; exact h1
    · rw [Nat.add_mul, Nat.mul_comm q r]; omega
  rw [this, Nat.mul_comm]

/-- C27 (absorbing): on data of at least one block, the full-block functions process all whole blocks, and the state
they give is that of the block-by-block loop on these blocks, with domain byte 0, from the down phase. -/
theorem C27_absorb (f : Bytes → Bytes) (hf : ∀ s : Bytes, s.length = 48 → (f s).length = 48) (i : Inst) (hi : WF i)
    (hp : i.phase = PhaseDown) (X : Bytes) :
    (44 ≤ X.length → ∃ s', absorbKeyedFullBlocks f i.state X X.length = some (s', X.length / 44 * 44) ∧
      absorbAny f false i (X.take (X.length / 44 * 44)) 44 0 = some { i with state := s' }) ∧
    (16 ≤ X.length → ∃ s', absorbHashFullBlocks f i.state X X.length = some (s', X.length / 16 * 16) ∧
      absorbAny f false i (X.take (X.length / 16 * 16)) 16 0 = some { i with state := s' }) := by
  obtain ⟨⟨s, u, k⟩, hS, rfl⟩ := hi.exists
  have hu : u = false := by
    have := phase_up ⟨s, u, k⟩
    cases u with
    | false => rfl
    | true => rw [hp] at this; exact absurd (this.2 rfl) (by decide)
  subst hu
  have key : ∀ r, 0 < r → r ≤ 46 → r ≤ X.length → ∃ s', absorbFullBlocks f r (X.length + 1) s X X.length =
      some (s', X.drop (X.length / r * r), X.length - X.length / r * r) ∧
      absorbAny f false (ofSt ⟨s, false, k⟩) (X.take (X.length / r * r)) r 0 =
        some { ofSt ⟨s, false, k⟩ with state := s' } := by
    intro r hr hr' hX
    obtain ⟨s', n, e1, e2, e3, e4, e5, _, e7, e8⟩ :=
      absorbFullBlocks_eq hf r hr hr' (X.length + 1) s X X.length rfl hX (by omega) hS
    have hn := full_count hr e3 e4 e7
    rw [hn] at e1 e8 e2
    refine ⟨s', e1, ?_⟩
    rw [(absorbAny_eq hf false r hr hr' ⟨s, false, k⟩ hS _ 0).1, Spec.Cyclist.absorbAny]
    have h := e8 k
    rw [Spec.Cyclist.rest, if_neg (by intro h; have := congrArg List.length h; rw [List.length_take, List.length_nil] at this; omega)] at h
    rw [h]
    rfl
  have hle : ∀ r, X.length / r * r ≤ X.length := fun r => Nat.div_mul_le_self _ _
  refine ⟨fun h => ?_, fun h => ?_⟩
  · obtain ⟨s', h1, h2⟩ := key 44 (by decide) (by decide) h
    refine ⟨s', ?_, h2⟩
    rw [absorbKeyedFullBlocks, show Rkin = 44 from rfl, show (ofSt ⟨s, false, k⟩).state = s from rfl, h1]
    simp only [Option.bind_eq_bind, Option.bind_some]
    rw [Nat.sub_sub_self (hle 44)]
  · obtain ⟨s', h1, h2⟩ := key 16 (by decide) (by decide) h
    refine ⟨s', ?_, h2⟩
    rw [absorbHashFullBlocks, show Rhash = 16 from rfl, show (ofSt ⟨s, false, k⟩).state = s from rfl, h1]
    simp only [Option.bind_eq_bind, Option.bind_some]
    rw [Nat.sub_sub_self (hle 16)]

/-- C27 (squeezing): if at least one block is wanted, the full-block functions write all whole blocks, and state and
output are those of the block-by-block loop for that number of bytes, from the up phase, in the mode the function is
for. -/
theorem C27_squeeze (f : Bytes → Bytes) (hf : ∀ s : Bytes, s.length = 48 → (f s).length = 48) (i : Inst) (hi : WF i)
    (hp : i.phase = PhaseUp) (n : Nat) :
    (i.mode = ModeKeyed → 24 ≤ n → ∃ s' Y, squeezeKeyedFullBlocks f i.state n = some (s', Y, n / 24 * 24) ∧
      squeezeLoop f false (n + 1) i (n / 24 * 24) = some ({ i with state := s' }, Y)) ∧
    (i.mode = ModeHash → 16 ≤ n → ∃ s' Y, squeezeHashFullBlocks f i.state n = some (s', Y, n / 16 * 16) ∧
      squeezeLoop f false (n + 1) i (n / 16 * 16) = some ({ i with state := s' }, Y)) := by
  obtain ⟨⟨s, u, k⟩, hS, rfl⟩ := hi.exists
  have hu : u = true := (phase_up ⟨s, u, k⟩).1 hp
  subst hu
  have hle : ∀ r, n / r * r ≤ n := fun r => Nat.div_mul_le_self _ _
  have key : ∀ r, 0 < r → r ≤ 48 → r ≤ n → Spec.Cyclist.Rsqueeze ⟨s, true, k⟩ = r →
      ∃ s' Y, squeezeFullBlocks f r (n + 1) s n = some (s', Y, n - n / r * r) ∧
      squeezeLoop f false (n + 1) (ofSt ⟨s, true, k⟩) (n / r * r) =
        some ({ ofSt ⟨s, true, k⟩ with state := s' }, Y) := by
    intro r hr hr' hn hR
    obtain ⟨s', Y, m, e1, e2, e3, e4, e5, _, e7, e8⟩ := squeezeFullBlocks_eq hf r hr hr' (n + 1) s n hn (by omega) hS
    have hm := full_count hr e3 e4 e7
    rw [hm] at e1 e8 e2
    refine ⟨s', Y, e1, ?_⟩
    have := hle r
    rw [(squeezeLoop_eq hf false (n + 1) ⟨s, true, k⟩ (n / r * r) hS rfl (by omega)).1, hR, e8 k]
    rfl
  refine ⟨fun hm h => ?_, fun hm h => ?_⟩
  · have hk : k = true := (mode_keyed ⟨s, true, k⟩).1 hm
    obtain ⟨s', Y, h1, h2⟩ := key 24 (by decide) (by decide) h (by rw [hk]; rfl)
    refine ⟨s', Y, ?_, h2⟩
    rw [squeezeKeyedFullBlocks, show Rkout = 24 from rfl, show (ofSt ⟨s, true, k⟩).state = s from rfl, h1]
    simp only [Option.bind_eq_bind, Option.bind_some]
    rw [Nat.sub_sub_self (hle 24)]
  · have hk : k = false := (mode_hash ⟨s, true, k⟩).1 hm
    obtain ⟨s', Y, h1, h2⟩ := key 16 (by decide) (by decide) h (by rw [hk]; rfl)
    refine ⟨s', Y, ?_, h2⟩
    rw [squeezeHashFullBlocks, show Rhash = 16 from rfl, show (ofSt ⟨s, true, k⟩).state = s from rfl, h1]
    simp only [Option.bind_eq_bind, Option.bind_some]
    rw [Nat.sub_sub_self (hle 16)]

/-- C27 (encrypting and decrypting): on a text of at least one block, the full-block functions process all whole
blocks, and state and output are those of the block-by-block loop on these blocks, with domain byte 0, from the down
phase. -/
theorem C27_crypt (f : Bytes → Bytes) (hf : ∀ s : Bytes, s.length = 48 → (f s).length = 48) (i : Inst) (hi : WF i)
    (hp : i.phase = PhaseDown) (I : Bytes) (h24 : 24 ≤ I.length) :
    (∃ s' O, encryptFullBlocks f i.state I I.length = some (s', O, I.length / 24 * 24) ∧
      cryptLoop f false false (I.length + 1) i (I.take (I.length / 24 * 24)) (I.length / 24 * 24) 0 =
        some ({ i with state := s' }, O)) ∧
    (∃ s' O, decryptFullBlocks f i.state I I.length = some (s', O, I.length / 24 * 24) ∧
      cryptLoop f false true (I.length + 1) i (I.take (I.length / 24 * 24)) (I.length / 24 * 24) 0 =
        some ({ i with state := s' }, O)) := by
  obtain ⟨⟨s, u, k⟩, hS, rfl⟩ := hi.exists
  have hu : u = false := by
    have := phase_up ⟨s, u, k⟩
    cases u with
    | false => rfl
    | true => rw [hp] at this; exact absurd (this.2 rfl) (by decide)
  subst hu
  have hle : I.length / 24 * 24 ≤ I.length := Nat.div_mul_le_self _ _
  have key : ∀ dec : Bool, ∃ s' O, cryptFull f dec (I.length + 1) s I I.length =
      some (s', O, I.length - I.length / 24 * 24) ∧
      cryptLoop f false dec (I.length + 1) (ofSt ⟨s, false, k⟩) (I.take (I.length / 24 * 24)) (I.length / 24 * 24) 0 =
        some ({ ofSt ⟨s, false, k⟩ with state := s' }, O) := by
    intro dec
    obtain ⟨s', O, n, e1, e2, e3, e4, e5, _, e7, e8⟩ :=
      cryptFull_eq hf dec (I.length + 1) s I I.length rfl h24 (by omega) hS
    have hn := full_count (by decide) e3 e4 e7
    rw [hn] at e1 e8 e2
    refine ⟨s', O, e1, ?_⟩
    have hne : I.take (I.length / 24 * 24) ≠ [] := by
      intro h; have := congrArg List.length h; rw [List.length_take, List.length_nil] at this; omega
    rw [(cryptLoop_eq hf false dec (I.length + 1) ⟨s, false, k⟩ (I.take (I.length / 24 * 24)) (I.length / 24 * 24) 0 hS
      (by simp; omega) (by omega) (fun _ => ⟨rfl, hne⟩)).1]
    have h := e8 k
    rw [Spec.Cyclist.rest, if_neg hne] at h
    rw [h]
    rfl
  refine ⟨?_, ?_⟩
  · obtain ⟨s', O, h1, h2⟩ := key false
    refine ⟨s', O, ?_, h2⟩
    rw [cryptFull, if_neg (by simp)] at h1
    rw [encryptFullBlocks, show (ofSt ⟨s, false, k⟩).state = s from rfl, h1]
    simp only [Option.bind_eq_bind, Option.bind_some]
    rw [Nat.sub_sub_self hle]
  · obtain ⟨s', O, h1, h2⟩ := key true
    refine ⟨s', O, ?_, h2⟩
    rw [cryptFull, if_pos rfl] at h1
    rw [decryptFullBlocks, show (ofSt ⟨s, false, k⟩).state = s from rfl, h1]
    simp only [Option.bind_eq_bind, Option.bind_some]
    rw [Nat.sub_sub_self hle]

/-- There are well-formed instances in each phase and mode. -/
example : WF ⟨Bytes.zeros 48, PhaseDown, ModeKeyed, 44, 24⟩ ∧ WF ⟨Bytes.zeros 48, PhaseUp, ModeHash, 16, 16⟩ :=
  ⟨⟨rfl, Or.inr rfl, Or.inr ⟨rfl, rfl, rfl⟩⟩, ⟨rfl, Or.inl rfl, Or.inl ⟨rfl, rfl, rfl⟩⟩⟩

end Xoodyak
