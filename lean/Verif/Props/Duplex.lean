import Verif.Proofs.DuplexStep
import Verif.Props.SP800185

/-!
# Properties of the duplex object (C20, C21, C22)

`f` is the bit-level permutation computed by `P.permute`.  The hypothesis on the width is met by all
instances of the code (25 to 200 bytes).
-/

namespace Duplex
open Spec.Duplex (Call trailing)

/-- A call to a function of `KeccakDuplex.inc`: return code, instance, bytes written to the output buffer. -/
def exec (P : SnP) (i : DuplexInst) : Call → Option (Nat × DuplexInst × Bytes)
  | .duplexing σ n d => duplexing P i σ n d
  | .feed x => (feedPartialInput i x).map fun (e, i) => (e, i, [])
  | .zeroes n => some ((feedZeroes i n).1, (feedZeroes i n).2, [])
  | .overwrite x => (overwritePartialInput i x).map fun (e, i) => (e, i, [])
  | .overwriteZeroes n => (overwriteWithZeroes i n).map fun (e, i) => (e, i, [])
  | .further n => getFurtherOutput i n
  | .furtherAndAdd x => getFurtherOutputAndAdd i x

/-- The lengths passed are of type `unsigned int`. -/
def Fits : Call → Prop
  | .duplexing σ n _ => σ.length < 2 ^ 32 ∧ n < 2 ^ 32
  | .feed x => x.length < 2 ^ 32
  | .zeroes n => n < 2 ^ 32
  | .overwrite x => x.length < 2 ^ 32
  | .overwriteZeroes n => n < 2 ^ 32
  | .further n => n < 2 ^ 32
  | .furtherAndAdd x => x.length < 2 ^ 32

/-- A sequence of calls: their return codes and outputs, and the final instance. -/
def execs (P : SnP) (i : DuplexInst) : List Call → Option (List (Nat × Bytes) × DuplexInst)
  | [] => some ([], i)
  | c :: cs => do
    let (e, i, out) ← exec P i c
    let (rest, i) ← execs P i cs
    some ((e, out) :: rest, i)

variable {P : SnP}

theorem exec_of_feed {i i' : DuplexInst} {x : Bytes} {e : Nat} (h : feedPartialInput i x = some (e, i')) :
    exec P i (.feed x) = some (e, i', []) := by
  rw [show exec P i (.feed x) = (feedPartialInput i x).map fun (e, i) => (e, i, []) from rfl, h]; rfl

theorem exec_of_zeroes {i i' : DuplexInst} {n e : Nat} (h : feedZeroes i n = (e, i')) :
    exec P i (.zeroes n) = some (e, i', []) := by
  rw [show exec P i (.zeroes n) = some ((feedZeroes i n).1, (feedZeroes i n).2, []) from rfl, h]

theorem exec_of_overwrite {i i' : DuplexInst} {x : Bytes} {e : Nat}
    (h : overwritePartialInput i x = some (e, i')) : exec P i (.overwrite x) = some (e, i', []) := by
  rw [show exec P i (.overwrite x) = (overwritePartialInput i x).map fun (e, i) => (e, i, []) from rfl, h]; rfl

theorem exec_of_overwriteZeroes {i i' : DuplexInst} {n e : Nat}
    (h : overwriteWithZeroes i n = some (e, i')) : exec P i (.overwriteZeroes n) = some (e, i', []) := by
  rw [show exec P i (.overwriteZeroes n) = (overwriteWithZeroes i n).map fun (e, i) => (e, i, []) from rfl, h]; rfl

theorem exec_step (hw : P.width ≤ 2 ^ 20) (hP : P.Valid) {f : Bits → Bits}
    (hf : ∀ s : Bytes, s.length = P.width → f (Bits.ofBytes s) = Bits.ofBytes (P.permute s))
    {s : Spec.Duplex.State} {i : DuplexInst} (h : Rep P f s i) (c : Call) (hc : Fits c)
    (hpre : Spec.Duplex.Pre i.rate s c) :
    ∃ i' out, exec P i c = some ((Spec.Duplex.step (8 * P.width) f i.rate s c).1, i', out) ∧
      Rep P f (Spec.Duplex.step (8 * P.width) f i.rate s c).2.1 i' ∧ i'.rate = i.rate ∧
      Bits.ofBytes out = (Spec.Duplex.step (8 * P.width) f i.rate s c).2.2 := by
  have henq : ∀ x : Bits, (Spec.Duplex.enqueue i.rate s x).2.2 = [] := by
    intro x; unfold Spec.Duplex.enqueue; split <;> rfl
  cases c with
  | duplexing σ n d =>
    simp only [Fits] at hc
    exact duplexing_step hw hP hf h σ hc.1 n d hpre
  | further n =>
    simp only [Fits] at hc
    exact further_step hw hP hf h n hc hpre
  | furtherAndAdd x =>
    simp only [Fits] at hc
    exact furtherAndAdd_step hw hP hf h x hc hpre
  | feed x =>
    simp only [Fits] at hc
    simp only [Spec.Duplex.step]
    obtain ⟨i', h1, h2, h3⟩ := feed_step hw h x hc
    exact ⟨i', [], exec_of_feed h1, h2, h3, (henq _).symm⟩
  | zeroes n =>
    simp only [Fits] at hc
    simp only [Spec.Duplex.step]
    obtain ⟨i', h1, h2, h3⟩ := zeroes_step hw h n hc
    exact ⟨i', [], exec_of_zeroes h1, h2, h3, (henq _).symm⟩
  | overwrite x =>
    simp only [Fits] at hc
    obtain ⟨i', h1, h2, h3⟩ := overwrite_step hw hP hf h x hc
    refine ⟨i', [], exec_of_overwrite h1, h2, h3, ?_⟩
    simp only [Spec.Duplex.step]
    split
    · exact (henq _).symm
    · rfl
  | overwriteZeroes n =>
    simp only [Fits] at hc
    obtain ⟨i', h1, h2, h3⟩ := overwriteZeroes_step hw hP hf h n hc
    refine ⟨i', [], exec_of_overwriteZeroes h1, h2, h3, ?_⟩
    simp only [Spec.Duplex.step]
    split
    · exact (henq _).symm
    · rfl

theorem init_iff (hw : P.width ≤ 2 ^ 20) (mem : DuplexInst) (rate capacity : BitVec 32) :
    ((duplexInit P mem rate capacity).1 = 0 ↔
      (rate + capacity).toNat = 8 * P.width ∧ 3 ≤ rate.toNat ∧ rate.toNat ≤ 8 * P.width) ∧
    ((duplexInit P mem rate capacity).1 ≠ 0 → duplexInit P mem rate capacity = (1, mem)) := by
  unfold duplexInit
  have hwn : (BitVec.ofNat 32 (P.width * 8)).toNat = 8 * P.width := by
    rw [BitVec.toNat_ofNat, Nat.mod_eq_of_lt (by omega)]; omega
  have e1 : (rate + capacity = BitVec.ofNat 32 (P.width * 8)) ↔ (rate + capacity).toNat = 8 * P.width := by
    rw [← hwn]
    exact ⟨fun h => by rw [h], fun h => BitVec.eq_of_toNat_eq h⟩
  have e2 : (rate ≤ 2) ↔ rate.toNat ≤ 2 := by rw [BitVec.le_def]; rfl
  have e3 : (BitVec.ofNat 32 (P.width * 8) < rate) ↔ 8 * P.width < rate.toNat := by
    rw [BitVec.lt_def, hwn]
  simp only [ne_eq, e1, e2, e3]
  by_cases h1 : (rate + capacity).toNat = 8 * P.width
  · by_cases h2 : rate.toNat ≤ 2 ∨ 8 * P.width < rate.toNat
    · simp only [h1, not_true_eq_false, if_false, h2, if_true]
      simp; omega
    · simp only [h1, not_true_eq_false, if_false, h2]
      simp; omega
  · simp only [h1, not_false_eq_true, if_true, false_and, iff_false]
    simp

theorem init_rep (hw : P.width ≤ 2 ^ 20) (f : Bits → Bits) (mem : DuplexInst) (rate capacity : BitVec 32)
    (i : DuplexInst) (h0 : duplexInit P mem rate capacity = (0, i)) :
    Rep P f (Spec.Duplex.start rate.toNat) i ∧ i.rate = rate.toNat := by
  have hi := (init_iff hw mem rate capacity).1.1 (by rw [h0])
  obtain ⟨h1, h2, h3⟩ := hi
  unfold duplexInit at h0
  split at h0
  · simp at h0
  split at h0
  · simp at h0
  obtain ⟨-, rfl⟩ := Prod.mk.inj h0
  refine ⟨⟨h2, h3, ?_, by simp [SnP.init], ?_, rfl, by simp [Spec.Duplex.start]; omega, ?_, by rfl⟩, rfl⟩
  · intro x hx; simp [Spec.Duplex.start] at hx
  · intro j
    simp only [Spec.Duplex.start, Spec.Duplex.st, SnP.init, Bits.ofBytes_zeros,
      Spec.Duplex.getD_replicate]
    simp
  · simp only [Spec.Duplex.start]
    rw [u32_eq (by omega)]

theorem execs_run (hw : P.width ≤ 2 ^ 20) (hP : P.Valid) {f : Bits → Bits}
    (hf : ∀ s : Bytes, s.length = P.width → f (Bits.ofBytes s) = Bits.ofBytes (P.permute s)) :
    ∀ (cs : List Call) (s : Spec.Duplex.State) (i : DuplexInst), Rep P f s i → (∀ c ∈ cs, Fits c) →
      Spec.Duplex.AllPre (8 * P.width) f i.rate s cs →
      ∃ outs i', execs P i cs = some (outs, i') ∧
        outs.map (fun (e, out) => (e, Bits.ofBytes out)) = Spec.Duplex.run (8 * P.width) f i.rate s cs
  | [], s, i, _, _, _ => ⟨[], i, rfl, rfl⟩
  | c :: cs, s, i, h, hc, hpre => by
    obtain ⟨i1, out, h1, h2, h3, h4⟩ := exec_step hw hP hf h c (hc c (by simp)) hpre.1
    obtain ⟨outs, i', h5, h6⟩ := execs_run hw hP hf cs _ i1 h2 (fun c hc' => hc c (by simp [hc']))
      (by rw [h3]; exact hpre.2)
    refine ⟨_, i', by simp only [execs, h1, Option.bind_eq_bind, Option.bind_some, h5]; rfl, ?_⟩
    rw [h3] at h6
    simp only [List.map_cons, h6, Spec.Duplex.run, h4]

/-- **C20.**  A duplex object initialised with any rate accepted by `DuplexInitialize` answers every sequence of
calls (return codes and output bits) as the duplex construction does: each output is a piece of the sponge
function applied to the whole history of inputs, where an input is what was queued followed by what was given
to `Duplexing`.  The calls must meet the preconditions `Spec.Duplex.Pre` (see C21 and C22 for what happens
otherwise); calls that do not fit return 1 and change nothing. -/
theorem C20_duplex (hw : P.width ≤ 2 ^ 20) (hP : P.Valid) (f : Bits → Bits)
    (hf : ∀ s : Bytes, s.length = P.width → f (Bits.ofBytes s) = Bits.ofBytes (P.permute s))
    (mem i : DuplexInst) (rate capacity : BitVec 32) (h0 : duplexInit P mem rate capacity = (0, i))
    (cs : List Call) (hc : ∀ c ∈ cs, Fits c)
    (hpre : Spec.Duplex.AllPre (8 * P.width) f rate.toNat (Spec.Duplex.start rate.toNat) cs) :
    ∃ outs i', execs P i cs = some (outs, i') ∧
      outs.map (fun (e, out) => (e, Bits.ofBytes out)) =
        Spec.Duplex.run (8 * P.width) f rate.toNat (Spec.Duplex.start rate.toNat) cs := by
  obtain ⟨h1, h2⟩ := init_rep hw f mem rate capacity i h0
  rw [← h2] at hpre h1 ⊢
  exact execs_run hw hP hf cs _ i h1 hc hpre

theorem exists_bitLevel (P : SnP) :
    ∃ f : Bits → Bits, ∀ s : Bytes, s.length = P.width → f (Bits.ofBytes s) = Bits.ofBytes (P.permute s) := by
  classical
  refine ⟨fun b => if h : ∃ s : Bytes, Bits.ofBytes s = b then Bits.ofBytes (P.permute h.choose) else [], ?_⟩
  intro s _
  have h : ∃ s' : Bytes, Bits.ofBytes s' = Bits.ofBytes s := ⟨s, rfl⟩
  simp only [h, dif_pos]
  rw [Bits.ofBytes_injective h.choose_spec]

-- hypotheses met: rate 61, input queued in two ways and completed by `Duplexing` with 3 trailing bits, further
-- output up to the incomplete last byte, and two calls that are refused
example (mem i : DuplexInst) (h0 : duplexInit Toy.snp mem 61 139 = (0, i)) : ∃ f : Bits → Bits, ∃ outs i',
    execs Toy.snp i [.feed [1, 2], .zeroes 1, .duplexing [3] 4 0x0D, .further 2, .furtherAndAdd [0xAA, 0xBB],
      .further 1, .feed [1, 2, 3, 4, 5, 6, 7, 8]] = some (outs, i') ∧
    outs.map (fun (e, out) => (e, Bits.ofBytes out)) = Spec.Duplex.run 200 f 61 (Spec.Duplex.start 61)
      [.feed [1, 2], .zeroes 1, .duplexing [3] 4 0x0D, .further 2, .furtherAndAdd [0xAA, 0xBB],
      .further 1, .feed [1, 2, 3, 4, 5, 6, 7, 8]] := by
  obtain ⟨f, hf⟩ := exists_bitLevel Toy.snp
  refine ⟨f, C20_duplex (by decide) Toy.snp_valid f hf mem i 61 139 h0 _ ?_ ?_⟩
  · simp [Fits]
  · have htr : (trailing 13#8).length = 3 := by decide
    simp [Spec.Duplex.AllPre, Spec.Duplex.Pre, Spec.Duplex.step, Spec.Duplex.enqueue, Spec.Duplex.start, htr]

/-- **C20**, initialisation: the rates from 3 to the width are accepted, with the capacity that completes them to
the width, and nothing else; a refused initialisation leaves the memory unchanged. -/
theorem C20_init_iff (hw : P.width ≤ 2 ^ 20) (mem : DuplexInst) (rate capacity : BitVec 32) :
    ((duplexInit P mem rate capacity).1 = 0 ↔
      (rate + capacity).toNat = 8 * P.width ∧ 3 ≤ rate.toNat ∧ rate.toNat ≤ 8 * P.width) ∧
    ((duplexInit P mem rate capacity).1 ≠ 0 → duplexInit P mem rate capacity = (1, mem)) :=
  init_iff hw mem rate capacity

/-! ## C21: the capacity part -/

/-- The instances that some sequence of calls leads to, whatever the arguments. -/
inductive Reach (P : SnP) : DuplexInst → Prop
  | init {mem i : DuplexInst} {rate capacity : BitVec 32} (h : duplexInit P mem rate capacity = (0, i)) : Reach P i
  | call {i i' : DuplexInst} {c : Call} {e : Nat} {out : Bytes} (h : Reach P i) (hc : Fits c)
      (hx : exec P i c = some (e, i', out)) : Reach P i'

/-- Two states have the same length and the same bits from bit `r` on. -/
def SameBeyond (r : Nat) (a b : Bytes) : Prop :=
  a.length = b.length ∧ ∀ j, r ≤ j → (Bits.ofBytes a).getD j false = (Bits.ofBytes b).getD j false

/-- The number of input bits of a call. -/
def inputBits : Call → Nat
  | .duplexing σ _ d => 8 * σ.length + (trailing d).length
  | .feed x => 8 * x.length
  | .zeroes n => 8 * n
  | .overwrite x => 8 * x.length
  | .overwriteZeroes n => 8 * n
  | .further _ => 0
  | .furtherAndAdd _ => 0

/-- The permutation applied by a call. -/
def permOf (P : SnP) : Call → Bytes → Bytes
  | .duplexing .. => P.permute
  | _ => id

theorem getD_above (d : Byte) (hd : d ≠ 0) (j : Nat) (hj : (trailing d).length + 1 ≤ j) :
    (Bits.ofBytes [d]).getD j false = false := by
  have hd0 : d.toNat ≠ 0 := by
    intro h'; exact hd (BitVec.eq_of_toNat_eq (by simpa using h'))
  have hlog : Nat.log2 d.toNat ≤ 7 := by
    have := (Nat.log2_lt hd0 (k := 8)).2 d.isLt
    omega
  have htl : (trailing d).length = Nat.log2 d.toNat := by
    unfold trailing
    rw [List.length_take, Bits.length_ofByte]; omega
  rw [Spec.Duplex.getD_ofBytes]
  by_cases h8 : j < 8
  · rw [Nat.div_eq_of_lt h8, Nat.mod_eq_of_lt h8]
    show d.getLsbD j = false
    rw [BitVec.getLsbD]
    apply Nat.testBit_lt_two_pow
    exact Nat.lt_of_lt_of_le ((Nat.log2_lt hd0).1 (Nat.lt_succ_self _)) (Nat.pow_le_pow_right (by omega) (by omega))
  · have : 1 ≤ j / 8 := by omega
    simp [List.getD_eq_getElem?_getD, List.getElem?_eq_none (show [d].length ≤ j / 8 by simpa using this)]

theorem sameBeyond_xorAt {r off : Nat} {s x : Bytes} (h : off + x.length ≤ s.length)
    (hx : ∀ j, r ≤ j → 8 * off ≤ j → (Bits.ofBytes x).getD (j - 8 * off) false = false) :
    SameBeyond r s (Bytes.xorAt s off x) := by
  refine ⟨by simp, ?_⟩
  intro j hj
  rw [Spec.Duplex.getD_xorAt _ _ _ h]
  split
  · rw [hx j hj ‹_›, Bool.xor_false]
  · rw [Bool.xor_false]

theorem SameBeyond.trans {r : Nat} {a b c : Bytes} (h : SameBeyond r a b) (h' : SameBeyond r b c) :
    SameBeyond r a c := ⟨h.1.trans h'.1, fun j hj => (h.2 j hj).trans (h'.2 j hj)⟩

theorem SameBeyond.refl (r : Nat) (a : Bytes) : SameBeyond r a a := ⟨rfl, fun _ _ => rfl⟩

theorem sameBeyond_bytes {r off : Nat} {s x : Bytes} (h : off + x.length ≤ s.length)
    (hr : 8 * off + 8 * x.length ≤ r) : SameBeyond r s (Bytes.xorAt s off x) :=
  sameBeyond_xorAt h fun j hj hj' => Spec.Duplex.getD_ge (by rw [Bits.length_ofBytes]; omega)

theorem sameBeyond_setAt {r off : Nat} {s x : Bytes} (h : off + x.length ≤ s.length)
    (hr : 8 * off + 8 * x.length ≤ r) : SameBeyond r s (Bytes.setAt s off x) := by
  refine ⟨by rw [Bytes.length_setAt], ?_⟩
  intro j hj
  rw [Spec.Duplex.getD_setAt _ _ _ h, if_neg (by omega)]

/-- What `Duplexing` computes when it returns. -/
theorem duplexing_cases {i i' : DuplexInst} {σ out : Bytes} {n e : Nat} {d : Byte}
    (hx : duplexing P i σ n d = some (e, i', out)) :
    (duplexingBad i σ.length n d = true ∧ e = 1 ∧ i' = i ∧ out = []) ∨
    (duplexingBad i σ.length n d = false ∧ e = 0 ∧ ∃ s2, ∃ s1, ∃ s0,
      SnP.addBytes i.state σ i.byteInputIndex = some s0 ∧
      SnP.addByte s0 d (u32 (i.byteInputIndex + σ.length)) = some s1 ∧
      SnP.addByte s1 (1#8 <<< (sub32 i.rate 1 % 8)) (sub32 i.rate 1 / 8) = some s2 ∧
      i' = { i with state := P.permute s2, byteInputIndex := 0, byteOutputIndex := n }) := by
  unfold duplexing at hx
  split at hx
  · rename_i hb
    simp only [Option.some.injEq, Prod.mk.injEq] at hx
    exact Or.inl ⟨hb, hx.1.symm, hx.2.1.symm, hx.2.2.symm⟩
  · rename_i hb
    right
    simp only [Option.bind_eq_bind, Option.bind_eq_some_iff] at hx
    obtain ⟨s0, h0, s1, h1, s2, h2, Z, hZ, hx⟩ := hx
    refine ⟨by simpa using hb, ?_⟩
    split at hx
    · simp only [Option.bind_eq_some_iff, Option.some.injEq, Prod.mk.injEq] at hx
      obtain ⟨_, _, he, hi, _⟩ := hx
      exact ⟨he.symm, s2, s1, s0, h0, h1, h2, hi.symm⟩
    · simp only [Option.bind_some, Option.some.injEq, Prod.mk.injEq] at hx
      obtain ⟨he, hi, _⟩ := hx
      exact ⟨he.symm, s2, s1, s0, h0, h1, h2, hi.symm⟩

/-- The condition under which `Duplexing` checks the length of its input correctly: nothing is queued, or the
trailing bits fit. -/
def DuplexFits (i : DuplexInst) : Call → Prop
  | .duplexing σ _ d => i.byteInputIndex = 0 ∨
      8 * i.byteInputIndex + 8 * σ.length + (trailing d).length ≤ i.rate - 2
  | _ => True

theorem furtherEnd_cases {i i' : DuplexInst} {X out : Bytes} {n e : Nat}
    (hx : furtherEnd i X n = some (e, i', out)) :
    e = 0 ∧ i' = { i with byteOutputIndex := u32 (i.byteOutputIndex + n) } := by
  unfold furtherEnd at hx
  simp only at hx
  split at hx
  · simp only [Option.bind_eq_bind, Option.bind_eq_some_iff, Option.some.injEq, Prod.mk.injEq] at hx
    obtain ⟨_, _, he, hi, _⟩ := hx
    exact ⟨he.symm, hi.symm⟩
  · simp only [Option.bind_eq_bind, Option.bind_some, Option.some.injEq, Prod.mk.injEq] at hx
    exact ⟨hx.1.symm, hx.2.1.symm⟩

/-- The effect of a call that returns, under the bounds `Inv`. -/
theorem exec_inv (hw : P.width ≤ 2 ^ 20) (hP : P.Valid) {i i' : DuplexInst} (h : Inv P i) (c : Call)
    (hc : Fits c) {e : Nat} {out : Bytes} (hx : exec P i c = some (e, i', out)) :
    (e = 1 ∧ i' = i ∧ out = []) ∨
    (e = 0 ∧ Inv P i' ∧ i'.rate = i.rate ∧ (DuplexFits i c →
      8 * i.byteInputIndex + inputBits c ≤ i.rate - 2 ∧
      ∃ s2, SameBeyond i.rate i.state s2 ∧ i'.state = permOf P c s2)) := by
  have h1 := h.rate_ge; have h2 := h.rate_le; have h3 := h.inIdx; have h4 := h.outIdx; have h5 := h.len
  cases c with
  | duplexing σ n d =>
    simp only [Fits] at hc
    have hx' : duplexing P i σ n d = some (e, i', out) := hx
    rcases duplexing_cases hx' with ⟨_, h⟩ | ⟨hb, he, s2, s1, s0, h0, h1', h2', hi⟩
    · exact Or.inl h
    right
    have hn : n ≤ (i.rate + 7) / 8 := by
      unfold duplexingBad at hb
      rw [rateBytes_eq hw h] at hb
      simp only [Bool.or_eq_false_iff, decide_eq_false_iff_not] at hb
      omega
    simp only [SnP.addBytes] at h0
    split at h0
    swap
    · simp at h0
    rename_i hl0
    simp only [SnP.addByte] at h1'
    split at h1'
    swap
    · simp at h1'
    rename_i hl1
    simp only [SnP.addByte] at h2'
    split at h2'
    swap
    · simp at h2'
    rename_i hl2
    simp only [Option.some.injEq] at h0 h1' h2'
    have hs0 : s0.length = P.width := by rw [← h0, Bytes.length_xorAt, h5]
    have hs1 : s1.length = P.width := by rw [← h1', Bytes.length_xorAt, hs0]
    have hs2 : s2.length = P.width := by rw [← h2', Bytes.length_xorAt, hs1]
    refine ⟨he, ?_, by rw [hi], ?_⟩
    · rw [hi]
      exact ⟨h1, h2, hP.permute_len _ hs2, by simp, hn⟩
    intro hfit
    simp only [DuplexFits] at hfit
    rw [duplexingBad_inv hw h σ hc.1 n d (fun _ => hfit)] at hb
    simp only [decide_eq_false_iff_not, not_not] at hb
    obtain ⟨hd, hb, -⟩ := hb
    refine ⟨by simp only [inputBits]; omega, s2, ?_, by rw [hi]; rfl⟩
    rw [u32_eq (x := i.byteInputIndex + σ.length) (by omega)] at h1' hl1
    rw [sub32_eq (a := i.rate) (b := 1) (by omega) (by omega)] at h2' hl2
    refine SameBeyond.trans (b := s0) (by rw [← h0]; exact sameBeyond_bytes hl0 (by omega)) ?_
    refine SameBeyond.trans (b := s1) ?_ ?_
    · rw [← h1']
      refine sameBeyond_xorAt (by simp only [List.length_singleton]; omega) ?_
      intro j hj hj'
      exact getD_above d hd _ (by omega)
    · rw [← h2']
      refine sameBeyond_xorAt (by simp only [List.length_singleton]; omega) ?_
      intro j hj hj'
      rw [bit_one _ _ (Nat.mod_lt _ (by omega)), decide_eq_false_iff_not]
      omega
  | feed x =>
    simp only [Fits] at hc
    have hx' : (feedPartialInput i x).map (fun (e, i) => (e, i, ([] : Bytes))) = some (e, i', out) := hx
    unfold feedPartialInput at hx'
    rw [feedBad_inv hw h _ hc] at hx'
    by_cases hfit : 8 * i.byteInputIndex + 8 * x.length ≤ i.rate - 2
    · right
      simp only [hfit, not_true_eq_false, decide_false, Bool.false_eq_true, if_false, SnP.addBytes] at hx'
      rw [if_pos (by omega), u32_eq (by omega)] at hx'
      simp only [Option.bind_eq_bind, Option.bind_some, Option.map_some, Option.some.injEq, Prod.mk.injEq] at hx'
      obtain ⟨he, hi, -⟩ := hx'
      refine ⟨he.symm, ?_, by rw [← hi], fun _ => ⟨hfit, _,
        sameBeyond_bytes (off := i.byteInputIndex) (x := x) (by omega) (by omega), by rw [← hi]; rfl⟩⟩
      rw [← hi]
      exact ⟨h1, h2, by simp [h5], by simp only; omega, h4⟩
    · left
      simp only [hfit, not_false_eq_true, decide_true, if_true, Option.map_some, Option.some.injEq,
        Prod.mk.injEq] at hx'
      exact ⟨hx'.1.symm, hx'.2.1.symm, hx'.2.2.symm⟩
  | zeroes n =>
    simp only [Fits] at hc
    have hx' : some ((feedZeroes i n).1, (feedZeroes i n).2, ([] : Bytes)) = some (e, i', out) := hx
    unfold feedZeroes at hx'
    rw [feedBad_inv hw h _ hc] at hx'
    by_cases hfit : 8 * i.byteInputIndex + 8 * n ≤ i.rate - 2
    · right
      simp only [hfit, not_true_eq_false, decide_false, Bool.false_eq_true, if_false] at hx'
      rw [u32_eq (by omega)] at hx'
      simp only [Option.some.injEq, Prod.mk.injEq] at hx'
      obtain ⟨he, hi, -⟩ := hx'
      refine ⟨he.symm, ?_, by rw [← hi], fun _ => ⟨hfit, _, SameBeyond.refl _ _, by rw [← hi]; rfl⟩⟩
      rw [← hi]
      exact ⟨h1, h2, h5, by simp only; omega, h4⟩
    · left
      simp only [hfit, not_false_eq_true, decide_true, if_true, Option.some.injEq,
        Prod.mk.injEq] at hx'
      exact ⟨hx'.1.symm, hx'.2.1.symm, hx'.2.2.symm⟩
  | overwrite x =>
    simp only [Fits] at hc
    have hx' : (overwritePartialInput i x).map (fun (e, i) => (e, i, ([] : Bytes))) = some (e, i', out) := hx
    unfold overwritePartialInput at hx'
    rw [feedBad_inv hw h _ hc] at hx'
    by_cases hfit : 8 * i.byteInputIndex + 8 * x.length ≤ i.rate - 2
    · right
      simp only [hfit, not_true_eq_false, decide_false, Bool.false_eq_true, if_false, SnP.overwriteBytes] at hx'
      rw [if_pos (by omega), u32_eq (by omega)] at hx'
      simp only [Option.bind_eq_bind, Option.bind_some, Option.map_some, Option.some.injEq, Prod.mk.injEq] at hx'
      obtain ⟨he, hi, -⟩ := hx'
      refine ⟨he.symm, ?_, by rw [← hi], fun _ => ⟨hfit, _,
        sameBeyond_setAt (off := i.byteInputIndex) (x := x) (by omega) (by omega), by rw [← hi]; rfl⟩⟩
      rw [← hi]
      exact ⟨h1, h2, by simp only [Bytes.length_setAt, h5], by simp only; omega, h4⟩
    · left
      simp only [hfit, not_false_eq_true, decide_true, if_true, Option.map_some, Option.some.injEq,
        Prod.mk.injEq] at hx'
      exact ⟨hx'.1.symm, hx'.2.1.symm, hx'.2.2.symm⟩
  | overwriteZeroes n =>
    simp only [Fits] at hc
    have hx' : (overwriteWithZeroes i n).map (fun (e, i) => (e, i, ([] : Bytes))) = some (e, i', out) := hx
    unfold overwriteWithZeroes at hx'
    rw [rhoMax_eq hw h] at hx'
    by_cases hfit : n ≤ (i.rate - 2) / 8 ∧ i.byteInputIndex = 0
    · right
      rw [if_neg (by omega), u32_eq (by omega), if_neg (by omega)] at hx'
      simp only [SnP.overwriteWithZeroes] at hx'
      rw [if_pos (by omega)] at hx'
      simp only [Option.bind_eq_bind, Option.bind_some, Option.map_some, Option.some.injEq, Prod.mk.injEq] at hx'
      obtain ⟨he, hi, -⟩ := hx'
      refine ⟨he.symm, ?_, by rw [← hi], fun _ => ⟨by simp only [inputBits]; omega, _, sameBeyond_setAt (off := 0)
        (x := Bytes.zeros n) ?_ ?_, by rw [← hi]; rfl⟩⟩
      · rw [← hi]
        exact ⟨h1, h2, by simp only [Bytes.length_setAt, h5], by simp only; omega, h4⟩
      · rw [Bytes.length_zeros]; omega
      · rw [Bytes.length_zeros]; omega
    · left
      by_cases hf : n > (i.rate - 2) / 8
      · rw [if_pos hf] at hx'
        simp only [Option.map_some, Option.some.injEq, Prod.mk.injEq] at hx'
        exact ⟨hx'.1.symm, hx'.2.1.symm, hx'.2.2.symm⟩
      · rw [if_neg hf, if_pos (by left; omega)] at hx'
        simp only [Option.map_some, Option.some.injEq, Prod.mk.injEq] at hx'
        exact ⟨hx'.1.symm, hx'.2.1.symm, hx'.2.2.symm⟩
  | further n =>
    simp only [Fits] at hc
    have hx' : getFurtherOutput i n = some (e, i', out) := hx
    unfold getFurtherOutput at hx'
    rw [rateBytes_eq hw h, sub32_eq (by omega) (by omega)] at hx'
    by_cases hfit : n > (i.rate + 7) / 8 - i.byteOutputIndex
    · left
      rw [if_pos hfit] at hx'
      simp only [Option.some.injEq, Prod.mk.injEq] at hx'
      exact ⟨hx'.1.symm, hx'.2.1.symm, hx'.2.2.symm⟩
    · right
      rw [if_neg hfit] at hx'
      simp only [Option.bind_eq_bind, Option.bind_eq_some_iff] at hx'
      obtain ⟨X, -, hx'⟩ := hx'
      obtain ⟨he, hi⟩ := furtherEnd_cases hx'
      rw [u32_eq (by omega)] at hi
      refine ⟨he, ?_, by rw [hi], fun _ => ⟨by simp only [inputBits]; omega, _, SameBeyond.refl _ _, by rw [hi]; rfl⟩⟩
      rw [hi]
      exact ⟨h1, h2, h5, h3, by simp only; omega⟩
  | furtherAndAdd x =>
    simp only [Fits] at hc
    have hx' : getFurtherOutputAndAdd i x = some (e, i', out) := hx
    unfold getFurtherOutputAndAdd at hx'
    rw [rateBytes_eq hw h, sub32_eq (by omega) (by omega)] at hx'
    by_cases hfit : x.length > (i.rate + 7) / 8 - i.byteOutputIndex
    · left
      rw [if_pos hfit] at hx'
      simp only [Option.some.injEq, Prod.mk.injEq] at hx'
      exact ⟨hx'.1.symm, hx'.2.1.symm, hx'.2.2.symm⟩
    · right
      rw [if_neg hfit] at hx'
      simp only [Option.bind_eq_bind, Option.bind_eq_some_iff] at hx'
      obtain ⟨X, -, hx'⟩ := hx'
      obtain ⟨he, hi⟩ := furtherEnd_cases hx'
      rw [u32_eq (by omega)] at hi
      refine ⟨he, ?_, by rw [hi], fun _ => ⟨by simp only [inputBits]; omega, _, SameBeyond.refl _ _, by rw [hi]; rfl⟩⟩
      rw [hi]
      exact ⟨h1, h2, h5, h3, by simp only; omega⟩

theorem Reach.inv (hw : P.width ≤ 2 ^ 20) (hP : P.Valid) {i : DuplexInst} (h : Reach P i) : Inv P i := by
  induction h with
  | init h0 =>
    exact (init_rep hw id _ _ _ _ h0).1.inv
  | call _ hc hx ih =>
    rcases exec_inv hw hP ih _ hc hx with ⟨-, rfl, -⟩ | ⟨-, h, -⟩
    · exact ih
    · exact h

/-- **C21** (partial).  In every reachable instance, whatever the arguments, a call returns 0 or 1; if it returns
1 it has changed nothing and written nothing; if it returns 0 then its input fits in the rate and only state
bits below the rate were changed before the permutation (if any) was applied.

What is missing for the full property: a `Duplexing` call whose trailing bits do not fit after bytes that were
already queued is excluded by `DuplexFits`; the code does not check it (`C21_violated`). -/
theorem C21_capacity_partial (hw : P.width ≤ 2 ^ 20) (hP : P.Valid) {i i' : DuplexInst} (h : Reach P i) (c : Call)
    (hc : Fits c) (hfit : DuplexFits i c) {e : Nat} {out : Bytes} (hx : exec P i c = some (e, i', out)) :
    (e = 1 ∧ i' = i ∧ out = []) ∨
    (e = 0 ∧ 8 * i.byteInputIndex + inputBits c ≤ i.rate - 2 ∧
      ∃ s2, SameBeyond i.rate i.state s2 ∧ i'.state = permOf P c s2) := by
  rcases exec_inv hw hP (h.inv hw hP) c hc hx with h | ⟨h1, -, -, h2⟩
  · exact Or.inl h
  · exact Or.inr ⟨h1, h2 hfit⟩

/-- Finding F7: the full property is false.  With rate 18, after two bytes have been queued, `Duplexing` with no
further byte and 7 trailing bits returns 0 although 23 bits were given for at most 16, and the state it permutes
differs from the previous one beyond the rate. -/
theorem C21_violated : ∃ i i' : DuplexInst, Reach Toy.snp i ∧ i.rate = 18 ∧
    duplexing Toy.snp i [] 0 0xFF = some (0, i', []) ∧
    8 * i.byteInputIndex + inputBits (.duplexing [] 0 0xFF) > i.rate - 2 ∧
    ¬ ∃ s2, SameBeyond i.rate i.state s2 ∧ i'.state = Toy.snp.permute s2 := by
  refine ⟨{ state := Bytes.zeros 25, rate := 18, byteInputIndex := 2, byteOutputIndex := 3 },
    { state := Toy.perm (Bytes.setAt (Bytes.zeros 25) 2 [0xFD]), rate := 18, byteInputIndex := 0,
      byteOutputIndex := 0 }, ?_, rfl, by decide +kernel, by decide +kernel, ?_⟩
  · refine Reach.call (c := .feed [0, 0]) (e := 0) (out := []) (Reach.init (mem := ⟨[], 0, 0, 0⟩) (rate := 18)
      (capacity := 182) rfl) ?_ ?_
    · simp [Fits]
    · decide +kernel
  · rintro ⟨s2, ⟨hl, hs⟩, he⟩
    have hl' : s2.length = 25 := hl.symm
    have hb : (Bits.ofBytes (Toy.perm s2)).getD 10 false = true := by
      have : Toy.perm s2 = Toy.perm (Bytes.setAt (Bytes.zeros 25) 2 [0xFD]) := he.symm
      rw [this]; decide
    have h18 := hs 18 (Nat.le_refl _)
    have hz : (Bits.ofBytes (Bytes.zeros 25)).getD 18 false = false := by decide
    have h18' : (Bits.ofBytes s2).getD 18 false = false := h18.symm.trans hz
    rw [Spec.Duplex.getD_ofBytes] at hb h18'
    simp only [Toy.perm, List.getD_eq_getElem?_getD] at hb h18'
    simp [hl'] at hb h18'
    rw [h18'] at hb
    simp at hb

/-! ## C22: further output -/

/-- Zero-length request at a position past the rate. -/
def EmptyPastRate (i : DuplexInst) : Call → Prop
  | .further n => n = 0 ∧ i.rate < 8 * i.byteOutputIndex
  | .furtherAndAdd x => x = [] ∧ i.rate < 8 * i.byteOutputIndex
  | _ => False

theorem furtherEnd_eq {i : DuplexInst} (hr : i.rate + 7 < 2 ^ 32) (X : Bytes) (n : Nat) (hX : X.length = n)
    (hfit : i.byteOutputIndex + n ≤ (i.rate + 7) / 8) (hn : n = 0 → 8 * i.byteOutputIndex ≤ i.rate) :
    ∃ Y, furtherEnd i X n = some (0, { i with byteOutputIndex := i.byteOutputIndex + n }, Y) ∧
      Bits.ofBytes Y = (Bits.ofBytes X).take (i.rate - 8 * i.byteOutputIndex) ++
        List.replicate (8 * n - (i.rate - 8 * i.byteOutputIndex)) false := by
  obtain ⟨Y, hY1, hY2⟩ := release X i.byteOutputIndex n i.rate hX hr hfit hn
  refine ⟨Y, ?_, hY2⟩
  unfold furtherEnd
  rw [u32_eq (x := i.byteOutputIndex + n) (by omega)]
  simp only
  split at hY1
  · rw [if_pos ‹_›, hY1]; rfl
  · rw [if_neg ‹_›, Option.some.inj hY1]; rfl

/-- What `DuplexingGetFurtherOutput` returns. -/
theorem further_eq (hw : P.width ≤ 2 ^ 20) {i : DuplexInst} (h : Inv P i) (n : Nat)
    (hn : n = 0 → 8 * i.byteOutputIndex ≤ i.rate) (hfit : i.byteOutputIndex + n ≤ (i.rate + 7) / 8) :
    ∃ out, getFurtherOutput i n = some (0, { i with byteOutputIndex := i.byteOutputIndex + n }, out) ∧
      Bits.ofBytes out = Spec.Duplex.piece ((Bits.ofBytes i.state).take i.rate) i.byteOutputIndex n := by
  have h1 := h.rate_ge; have h2 := h.rate_le; have h3 := h.inIdx; have h4 := h.outIdx; have h5 := h.len
  unfold getFurtherOutput
  rw [rateBytes_eq hw h, sub32_eq (by omega) (by omega), if_neg (by omega)]
  simp only [SnP.extractBytes]
  rw [if_pos (by omega)]
  simp only [Option.bind_eq_bind, Option.bind_some]
  obtain ⟨Y, hY1, hY2⟩ := furtherEnd_eq (i := i) (by omega) (Bytes.slice i.state i.byteOutputIndex n) n
    (Bytes.length_slice_of_le (by omega)) hfit hn
  refine ⟨Y, hY1, ?_⟩
  rw [hY2]
  unfold Spec.Duplex.piece Bytes.slice
  simp only
  rw [← Bits.take_ofBytes, ← Bits.drop_ofBytes, List.drop_take, List.take_take, List.take_take, List.length_take,
    List.length_drop, Bits.length_ofBytes, Nat.min_comm (8 * n)]
  congr 2
  omega

theorem furtherAndAdd_eq (hw : P.width ≤ 2 ^ 20) {i : DuplexInst} (h : Inv P i) (x : Bytes)
    (hn : x = [] → 8 * i.byteOutputIndex ≤ i.rate) (hfit : i.byteOutputIndex + x.length ≤ (i.rate + 7) / 8) :
    ∃ out, getFurtherOutputAndAdd i x =
        some (0, { i with byteOutputIndex := i.byteOutputIndex + x.length }, out) ∧
      Bits.ofBytes out = Spec.Duplex.piece (Spec.xorBits (Bits.ofBytes x)
        (((Bits.ofBytes i.state).take i.rate).drop (8 * i.byteOutputIndex))) 0 x.length := by
  have h1 := h.rate_ge; have h2 := h.rate_le; have h3 := h.inIdx; have h4 := h.outIdx; have h5 := h.len
  unfold getFurtherOutputAndAdd
  rw [rateBytes_eq hw h, sub32_eq (by omega) (by omega), if_neg (by omega)]
  simp only [SnP.extractAndAddBytes]
  rw [if_pos (by omega)]
  simp only [Option.bind_eq_bind, Option.bind_some]
  have hsl : (Bytes.slice i.state i.byteOutputIndex x.length).length = x.length :=
    Bytes.length_slice_of_le (by omega)
  have hXl : (Bytes.xor x (Bytes.slice i.state i.byteOutputIndex x.length)).length = x.length := by
    rw [Bytes.length_xor, hsl, Nat.min_self]
  obtain ⟨Y, hY1, hY2⟩ := furtherEnd_eq (i := i) (by omega)
    (Bytes.xor x (Bytes.slice i.state i.byteOutputIndex x.length)) x.length
    hXl hfit (fun h0 => hn (List.eq_nil_of_length_eq_zero h0))
  refine ⟨Y, hY1, ?_⟩
  rw [hY2, Bits.ofBytes_xor _ _ hsl.symm]
  unfold Spec.Duplex.piece Bytes.slice Spec.xorBits
  simp only
  rw [← Bits.take_ofBytes, ← Bits.drop_ofBytes, List.drop_take, Nat.mul_zero, List.drop_zero,
    List.length_take, List.length_zipWith, List.length_take, List.length_drop, Bits.length_ofBytes,
    Bits.length_ofBytes, List.take_zipWith, List.take_zipWith, List.take_take, List.take_take,
    Nat.min_comm (8 * x.length) (i.rate - _)]
  congr 1
  · apply List.ext_getElem
    · simp only [List.length_zipWith, List.length_take, Bits.length_ofBytes, List.length_drop]
      omega
    · intro k hk1 hk2
      simp only [List.getElem_zipWith, List.getElem_take, List.getElem_drop]
  · congr 1
    omega

/-- **C22** (partial).  In every reachable instance, a further-output request that exceeds what is left of the
rate returns 1 without writing anything; any other request returns exactly the next `n` bytes of the state, cut
at the rate (the bits of the last byte beyond the rate are zero), and advances the output position.

What is missing for the full property: zero-length requests past the rate, for which the code writes in front
of the output buffer (`C22_violated`); and that the bytes are those of the output block, which is only so if no
input has been queued at the same positions (`C20_duplex`, `C22_queue_violated`). -/
theorem C22_further_partial (hw : P.width ≤ 2 ^ 20) (hP : P.Valid) {i : DuplexInst} (h : Reach P i) (x : Bytes)
    (hn : x = [] → 8 * i.byteOutputIndex ≤ i.rate) :
    (i.byteOutputIndex + x.length ≤ (i.rate + 7) / 8 →
      ∃ out out', getFurtherOutput i x.length =
          some (0, { i with byteOutputIndex := i.byteOutputIndex + x.length }, out) ∧
        getFurtherOutputAndAdd i x =
          some (0, { i with byteOutputIndex := i.byteOutputIndex + x.length }, out') ∧
        out.length = x.length ∧ out'.length = x.length ∧
        Bits.ofBytes out = Spec.Duplex.piece ((Bits.ofBytes i.state).take i.rate) i.byteOutputIndex x.length ∧
        Bits.ofBytes out' = Spec.Duplex.piece (Spec.xorBits (Bits.ofBytes x)
          (((Bits.ofBytes i.state).take i.rate).drop (8 * i.byteOutputIndex))) 0 x.length) ∧
    (¬ i.byteOutputIndex + x.length ≤ (i.rate + 7) / 8 →
      getFurtherOutput i x.length = some (1, i, []) ∧ getFurtherOutputAndAdd i x = some (1, i, [])) := by
  have hi := h.inv hw hP
  have h1 := hi.rate_ge; have h2 := hi.rate_le; have h4 := hi.outIdx
  have hpl : ∀ (blk : Bits) (o n : Nat), (Spec.Duplex.piece blk o n).length = 8 * n := by
    intro blk o n
    unfold Spec.Duplex.piece
    simp only [List.length_append, List.length_replicate, List.length_take, List.length_drop]
    omega
  constructor
  · intro hfit
    obtain ⟨out, h5, h6⟩ := further_eq hw hi x.length
      (fun h0 => hn (List.eq_nil_of_length_eq_zero h0)) hfit
    obtain ⟨out', h7, h8⟩ := furtherAndAdd_eq hw hi x hn hfit
    refine ⟨out, out', h5, h7, ?_, ?_, h6, h8⟩
    · have := congrArg List.length h6
      rw [hpl, Bits.length_ofBytes] at this
      omega
    · have := congrArg List.length h8
      rw [hpl, Bits.length_ofBytes] at this
      omega
  · intro hfit
    unfold getFurtherOutput getFurtherOutputAndAdd
    rw [rateBytes_eq hw hi, sub32_eq (by omega) (by omega), if_pos (by omega), if_pos (by omega)]
    exact ⟨rfl, rfl⟩

/-- **C22**, memory safety: among all calls in all reachable instances, the only ones that leave the bounds of
a buffer or of the state are the zero-length further-output requests past the rate. -/
theorem C22_bounds_iff (hw : P.width ≤ 2 ^ 20) (hP : P.Valid) {i : DuplexInst} (h : Reach P i) (c : Call)
    (hc : Fits c) : exec P i c = none ↔ EmptyPastRate i c := by
  have hi := h.inv hw hP
  have h1 := hi.rate_ge; have h2 := hi.rate_le; have h3 := hi.inIdx; have h4 := hi.outIdx; have h5 := hi.len
  have key : ∀ x : Bytes, ¬ (x = [] ∧ i.rate < 8 * i.byteOutputIndex) →
      getFurtherOutput i x.length ≠ none ∧ getFurtherOutputAndAdd i x ≠ none := by
    intro x hx
    have := C22_further_partial hw hP h x (fun h0 => by
      by_contra hlt
      exact hx ⟨h0, by omega⟩)
    by_cases hfit : i.byteOutputIndex + x.length ≤ (i.rate + 7) / 8
    · obtain ⟨o, o', e1, e2, -⟩ := this.1 hfit
      rw [e1, e2]; simp
    · obtain ⟨e1, e2⟩ := this.2 hfit
      rw [e1, e2]; simp
  have hend : ∀ X : Bytes, X.length = 0 → i.rate < 8 * i.byteOutputIndex → furtherEnd i X 0 = none := by
    intro X hX hlt
    have : X = [] := List.eq_nil_of_length_eq_zero hX
    subst this
    unfold furtherEnd
    simp only [Nat.add_zero]
    rw [u32_eq (x := i.byteOutputIndex) (by omega), u32_eq (by omega), if_pos (by omega)]
    rfl
  cases c with
  | duplexing σ n d =>
    simp only [Fits] at hc
    simp only [EmptyPastRate, iff_false]
    show duplexing P i σ n d ≠ none
    unfold duplexing
    by_cases hb : duplexingBad i σ.length n d = true
    · rw [if_pos hb]; simp
    · rw [if_neg hb]
      have hb' : duplexingBad i σ.length n d = false := by simpa using hb
      unfold duplexingBad at hb'
      rw [rateBytes_eq hw hi, rhoMax_eq hw hi] at hb'
      simp only [Bool.or_eq_false_iff, decide_eq_false_iff_not] at hb'
      obtain ⟨⟨⟨⟨-, hb1⟩, hb2⟩, -⟩, hb3⟩ := hb'
      rw [u32_eq (x := i.byteInputIndex + σ.length) (by omega), u32_eq (by omega)] at hb2
      simp only [SnP.addBytes, SnP.addByte, SnP.extractBytes]
      rw [if_pos (by omega), u32_eq (x := i.byteInputIndex + σ.length) (by omega),
        sub32_eq (a := i.rate) (b := 1) (by omega) (by omega)]
      simp only [Option.bind_eq_bind, Option.bind_some, Bytes.length_xorAt]
      rw [if_pos (by omega)]
      simp only [Option.bind_some, Bytes.length_xorAt]
      rw [if_pos (by omega)]
      simp only [Option.bind_some]
      generalize hs2 : Bytes.xorAt (Bytes.xorAt (Bytes.xorAt i.state i.byteInputIndex σ)
        (i.byteInputIndex + σ.length) [d]) ((i.rate - 1) / 8) [1#8 <<< ((i.rate - 1) % 8)] = s2
      have hpl : (P.permute s2).length = P.width := hP.permute_len _ (by rw [← hs2]; simp [h5])
      rw [if_pos (by omega)]
      simp only [Option.bind_some]
      obtain ⟨Y, hY1, -⟩ := release (Bytes.slice (P.permute s2) 0 n) 0 n i.rate
        (Bytes.length_slice_of_le (by omega)) (by omega) (by omega) (fun _ => by omega)
      rw [Nat.zero_add] at hY1
      split at hY1
      · rw [if_pos ‹_›, hY1]; simp
      · rw [if_neg ‹_›]; simp
  | feed x =>
    simp only [Fits] at hc
    simp only [EmptyPastRate, iff_false]
    show (feedPartialInput i x).map _ ≠ none
    unfold feedPartialInput
    rw [feedBad_inv hw hi _ hc]
    by_cases hfit : 8 * i.byteInputIndex + 8 * x.length ≤ i.rate - 2
    · simp only [hfit, not_true_eq_false, decide_false, Bool.false_eq_true, if_false, SnP.addBytes]
      rw [if_pos (by omega)]; simp
    · simp [hfit]
  | zeroes n =>
    simp only [EmptyPastRate, iff_false]
    show some _ ≠ none
    simp
  | overwrite x =>
    simp only [Fits] at hc
    simp only [EmptyPastRate, iff_false]
    show (overwritePartialInput i x).map _ ≠ none
    unfold overwritePartialInput
    rw [feedBad_inv hw hi _ hc]
    by_cases hfit : 8 * i.byteInputIndex + 8 * x.length ≤ i.rate - 2
    · simp only [hfit, not_true_eq_false, decide_false, Bool.false_eq_true, if_false, SnP.overwriteBytes]
      rw [if_pos (by omega)]; simp
    · simp [hfit]
  | overwriteZeroes n =>
    simp only [Fits] at hc
    simp only [EmptyPastRate, iff_false]
    show (overwriteWithZeroes i n).map _ ≠ none
    unfold overwriteWithZeroes
    rw [rhoMax_eq hw hi]
    by_cases hf : n > (i.rate - 2) / 8
    · rw [if_pos hf]; simp
    · rw [if_neg hf]
      simp only [SnP.overwriteWithZeroes]
      rw [if_pos (show n ≤ i.state.length by omega)]
      split <;> simp
  | further n =>
    show getFurtherOutput i n = none ↔ _
    simp only [EmptyPastRate]
    constructor
    · intro hnone
      by_contra hno
      refine (key (List.replicate n 0) ?_).1 (by rw [List.length_replicate]; exact hnone)
      simpa using hno
    · rintro ⟨rfl, hlt⟩
      unfold getFurtherOutput
      rw [if_neg (by omega)]
      simp only [SnP.extractBytes, Nat.add_zero]
      rw [if_pos (by omega)]
      simp only [Option.bind_eq_bind, Option.bind_some]
      exact hend _ (by simp [Bytes.slice]) hlt
  | furtherAndAdd x =>
    show getFurtherOutputAndAdd i x = none ↔ _
    simp only [EmptyPastRate]
    constructor
    · intro hnone
      by_contra hno
      exact (key x hno).2 hnone
    · rintro ⟨rfl, hlt⟩
      unfold getFurtherOutputAndAdd
      rw [if_neg (by simp)]
      simp only [SnP.extractAndAddBytes, List.length_nil, Nat.add_zero]
      rw [if_pos (by omega)]
      simp only [Option.bind_eq_bind, Option.bind_some]
      exact hend _ (by simp [Bytes.xor]) hlt

/-- Finding F8: right after initialisation with rate 1346 (the documentation's own example), a request for zero
bytes writes to `output[-1]`. -/
theorem C22_violated : ∃ i : DuplexInst, Reach SP800185.toy1600 i ∧ i.rate = 1346 ∧
    getFurtherOutput i 0 = none ∧ getFurtherOutputAndAdd i [] = none := by
  obtain ⟨i, hi⟩ : ∃ i, duplexInit SP800185.toy1600 ⟨[], 0, 0, 0⟩ 1346 254 = (0, i) := ⟨_, rfl⟩
  have hw : SP800185.toy1600.width ≤ 2 ^ 20 := by decide
  have hr := Reach.init hi
  have hrep := init_rep hw id _ _ _ _ hi
  have hrate : i.rate = 1346 := hrep.2
  have hout : i.byteOutputIndex = 169 := by rw [hrep.1.outIdx]; rfl
  have hlt : i.rate < 8 * i.byteOutputIndex := by omega
  refine ⟨i, hr, hrate, ?_, ?_⟩
  · exact (C22_bounds_iff hw SP800185.toy1600_valid hr (.further 0) (by simp [Fits])).2 ⟨rfl, hlt⟩
  · exact (C22_bounds_iff hw SP800185.toy1600_valid hr (.furtherAndAdd []) (by simp [Fits])).2 ⟨rfl, hlt⟩

/-- Finding F9: output requested at a position where input has been queued is not the output of the previous
duplexing call, but its sum with the queued input. -/
theorem C22_queue_violated : ∃ i i1 i2 i3 : DuplexInst, Reach Toy.snp i ∧
    feedPartialInput i [0xFF] = some (0, i1) ∧ getFurtherOutput i 1 = some (0, i2, [0x35]) ∧
    getFurtherOutput i1 1 = some (0, i3, [0xCA]) := by
  refine ⟨DuplexInst.mk (Toy.perm (Bytes.setAt (Bytes.setAt (Bytes.zeros 25) 0 [1]) 7 [0x80])) 64 0 0, _, _, _, ?_, rfl, rfl, rfl⟩
  refine Reach.call (c := .duplexing [] 0 0x01) (e := 0) (out := []) (Reach.init (mem := ⟨[], 0, 0, 0⟩) (rate := 64)
    (capacity := 136) rfl) ?_ ?_
  · simp [Fits]
  · decide +kernel

end Duplex
