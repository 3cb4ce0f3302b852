import Verif.Proofs.PySponge
import Verif.Props.CompactFIPS202

/-!
# C55: the standalone Python implementations are FIPS 202

`CompactFIPS202.py` works on unbounded integers and `CompactFIPS202_numpy.py` on arrays of 64-bit words.  Both permutations are
KECCAK-f[1600], `Keccak` is the sponge function, and the six functions are those of FIPS 202.  For the remaining arguments it is
determined whether `Keccak` returns `None`, a value, or nothing at all.
-/

namespace Py202

/-- The call ends and returns `r` (`none` for `None`): the result does not depend on the fuel, once there is enough. -/
def Returns (call : Nat → Option (Option Bytes)) (r : Option Bytes) : Prop := ∃ N, ∀ fuel, N ≤ fuel → call fuel = some r

/-- The call raises an exception or does not end. -/
def Fails (call : Nat → Option (Option Bytes)) : Prop := ∀ fuel, call fuel = none

theorem Returns.unique {call : Nat → Option (Option Bytes)} {r r' : Option Bytes} (h : Returns call r) (h' : Returns call r') :
    r = r' := by
  obtain ⟨N, h⟩ := h
  obtain ⟨N', h'⟩ := h'
  have := (h (N + N') (by omega)).symm.trans (h' (N + N') (by omega))
  exact Option.some.inj this

theorem Returns.not_fails {call : Nat → Option (Option Bytes)} {r : Option Bytes} (h : Returns call r) : ¬ Fails call := by
  obtain ⟨N, h⟩ := h
  intro hf
  have := h N (Nat.le_refl _)
  rw [hf N] at this
  cases this

/-- The call returns `n` bytes whose bits are `S`. -/
def Gives (call : Nat → Option (Option Bytes)) (n : Nat) (S : Bits) : Prop :=
  ∃ o : Bytes, Returns call (some o) ∧ o.length = n ∧ Bits.ofBytes o = S

/-! ## The permutations -/

/-- C55: both permutations are KECCAK-f[1600], on every state of 200 bytes. -/
theorem C55_permutations (s : Bytes) (hs : s.length = 200) :
    (∃ t, Plain.permute s = some t ∧ t.length = 200 ∧ Bits.ofBytes t = Spec.KeccakP.keccakF (Bits.ofBytes s)) ∧
    (∃ t, Numpy.permute s = some t ∧ t.length = 200 ∧ Bits.ofBytes t = Spec.KeccakP.keccakF (Bits.ofBytes s)) := by
  have := KeccakP1600.C37_ref 24 (by decide) s hs
  exact ⟨⟨_, Plain.permute_eq s hs, this.1, this.2⟩, ⟨_, Numpy.permute_eq s hs, this.1, this.2⟩⟩

/-- One of the two permutations. -/
inductive Permutation : (Bytes → Option Bytes) → Prop
  | plain : Permutation Plain.permute
  | numpy : Permutation Numpy.permute

theorem perm_of {f : Bytes → Option Bytes} (hf : Permutation f) : Compact202.Perm Compact202.Tweet.F f := by
  cases hf
  · exact ⟨(KeccakP1600.Ref.computes 24 (by decide)).valid, rfl, Plain.permute_eq⟩
  · exact ⟨(KeccakP1600.Ref.computes 24 (by decide)).valid, rfl, Numpy.permute_eq⟩

/-! ## The sponge function -/

/-- C55: `Keccak` is the sponge function, for every rate from 8 to 1600 that is a multiple of 8, every suffix, message and
output length; with a negative output length the output is empty. -/
theorem C55_keccak {f : Bytes → Option Bytes} (hf : Permutation f) (rate capacity : Int) (hr : 0 < rate) (hr' : rate ≤ 1600)
    (hr8 : rate % 8 = 0) (hc : rate + capacity = 1600) (input : Bytes) (l : Bits) (d : Byte) (hd : Bits.DelimitedBy l d)
    (outLen : Int) :
    Gives (fun fuel => keccak f fuel rate capacity input d.toNat outLen) outLen.toNat
      (Spec.KECCAK Spec.KeccakP.keccakF capacity.toNat (Bits.ofBytes input ++ l) (8 * outLen.toNat)) := by
  obtain ⟨R, hR⟩ : ∃ R : Nat, rate = 8 * (R : Int) := ⟨(rate / 8).toNat, by omega⟩
  have hcc := KeccakP1600.Ref.computes 24 (by decide)
  have hcap : capacity = 1600 - 8 * (R : Int) := by omega
  subst hR hcap
  refine ⟨_, ⟨input.length + outLen.toNat + 1, fun fuel hfu =>
    keccak_eq (perm_of hf) (R := R) (by omega) (by omega) fuel input d outLen (by omega) (by omega)⟩,
    Sponge.length_squeezeAll _ _ _, ?_⟩
  rw [Spec.KECCAK, show 1600 - (1600 - 8 * (R : Int)).toNat = 8 * R by omega]
  exact Sponge.machine_eq_spec hcc.valid _ hcc.permute (by omega) (show R ≤ 200 by omega) input l d hd _

/-- C55: `Keccak` returns `None` exactly if the check of the parameters fails. -/
theorem C55_none {f : Bytes → Option Bytes} (rate capacity : Int) (input : Bytes) (suffix outLen : Int) :
    Returns (fun fuel => keccak f fuel rate capacity input suffix outLen) none ↔ rate + capacity ≠ 1600 ∨ rate % 8 ≠ 0 := by
  constructor
  · rintro ⟨N, h⟩
    by_contra hc
    have := h N (Nat.le_refl _)
    simp only [keccak, if_neg hc] at this
    obtain ⟨a, -, this⟩ := Option.bind_eq_some_iff.1 this
    obtain ⟨b, -, this⟩ := Option.bind_eq_some_iff.1 this
    obtain ⟨c, -, this⟩ := Option.bind_eq_some_iff.1 this
    cases this
  · intro h
    exact ⟨0, fun fuel _ => by simp only [keccak, if_pos h]⟩

/-! ## The functions of FIPS 202 -/

/-- C55: the six functions, with either permutation, for every message and output length. -/
theorem C55_functions {f : Bytes → Option Bytes} (hf : Permutation f) (M : Bytes) :
    (∀ n : Nat, Gives (fun fuel => shake128 f fuel M n) n (Spec.SHAKE Spec.KeccakP.keccakF 128 (Bits.ofBytes M) (8 * n))) ∧
    (∀ n : Nat, Gives (fun fuel => shake256 f fuel M n) n (Spec.SHAKE Spec.KeccakP.keccakF 256 (Bits.ofBytes M) (8 * n))) ∧
    Gives (fun fuel => sha3_224 f fuel M) 28 (Spec.SHA3 Spec.KeccakP.keccakF 224 (Bits.ofBytes M)) ∧
    Gives (fun fuel => sha3_256 f fuel M) 32 (Spec.SHA3 Spec.KeccakP.keccakF 256 (Bits.ofBytes M)) ∧
    Gives (fun fuel => sha3_384 f fuel M) 48 (Spec.SHA3 Spec.KeccakP.keccakF 384 (Bits.ofBytes M)) ∧
    Gives (fun fuel => sha3_512 f fuel M) 64 (Spec.SHA3 Spec.KeccakP.keccakF 512 (Bits.ofBytes M)) :=
  ⟨fun n => C55_keccak hf 1344 256 (by decide) (by decide) (by decide) (by decide) M _ _ Compact202.shake_suffix n,
   fun n => C55_keccak hf 1088 512 (by decide) (by decide) (by decide) (by decide) M _ _ Compact202.shake_suffix n,
   C55_keccak hf 1152 448 (by decide) (by decide) (by decide) (by decide) M _ _ Compact202.sha3_suffix (224 / 8),
   C55_keccak hf 1088 512 (by decide) (by decide) (by decide) (by decide) M _ _ Compact202.sha3_suffix (256 / 8),
   C55_keccak hf 832 768 (by decide) (by decide) (by decide) (by decide) M _ _ Compact202.sha3_suffix (384 / 8),
   C55_keccak hf 576 1024 (by decide) (by decide) (by decide) (by decide) M _ _ Compact202.sha3_suffix (512 / 8)⟩

/-- C55: the two files give the same results. -/
theorem C55_agree (rate capacity : Int) (hr : 0 < rate) (hr' : rate ≤ 1600) (hr8 : rate % 8 = 0) (hc : rate + capacity = 1600)
    (input : Bytes) (d : Byte) (outLen : Int) :
    ∃ o, Returns (fun fuel => keccak Plain.permute fuel rate capacity input d.toNat outLen) (some o) ∧
      Returns (fun fuel => keccak Numpy.permute fuel rate capacity input d.toNat outLen) (some o) := by
  obtain ⟨R, hR⟩ : ∃ R : Nat, rate = 8 * (R : Int) := ⟨(rate / 8).toNat, by omega⟩
  have hcap : capacity = 1600 - 8 * (R : Int) := by omega
  subst hR hcap
  exact ⟨_, ⟨input.length + outLen.toNat + 1, fun fuel hfu =>
      keccak_eq (perm_of .plain) (R := R) (by omega) (by omega) fuel input d outLen (by omega) (by omega)⟩,
    ⟨input.length + outLen.toNat + 1, fun fuel hfu =>
      keccak_eq (perm_of .numpy) (R := R) (by omega) (by omega) fuel input d outLen (by omega) (by omega)⟩⟩

/-! ## Other parameters -/

/-- C55: a suffix that is not a byte is rejected with an exception, if the loop over the input ends at all. -/
theorem C55_suffix {f : Bytes → Option Bytes} (rate capacity : Int) (hr8 : rate % 8 = 0) (hc : rate + capacity = 1600)
    (input : Bytes) (suffix : Int) (hs : suffix < 0 ∨ 256 ≤ suffix) (outLen : Int) :
    Fails (fun fuel => keccak f fuel rate capacity input suffix outLen) := by
  intro fuel
  simp only [keccak, if_neg (show ¬ (rate + capacity ≠ 1600 ∨ rate % 8 ≠ 0) by omega)]
  rw [Option.bind_eq_bind, Option.bind_eq_none_iff]
  intro a _
  have : pad f (rate / 8) suffix a.1 a.2 = none := by
    rw [pad, xorB_bad _ _ _ hs]; rfl
  rw [this]; rfl

/-- C55: what `Keccak` does with a rate that passes the check: it returns a value if the rate is from 8 to 1600; otherwise only
if message and output are empty and the rate is not positive and at least -1592, because then the negative index counts from
the end of the state.  In the other cases it raises an exception or does not end. -/
theorem C55_defined {f : Bytes → Option Bytes} (hf : Permutation f) (rate capacity : Int) (hr8 : rate % 8 = 0)
    (hc : rate + capacity = 1600) (input : Bytes) (d : Byte) (outLen : Int) :
    let call := fun fuel => keccak f fuel rate capacity input d.toNat outLen
    let ok := (0 < rate ∧ rate ≤ 1600) ∨ (input = [] ∧ outLen ≤ 0 ∧ -1592 ≤ rate ∧ rate ≤ 0)
    (ok → ∃ o, Returns call (some o)) ∧ (¬ ok → Fails call) := by
  intro call ok
  have hk : Keeps f := Keeps.of (perm_of hf)
  obtain ⟨R, hR⟩ : ∃ R : Int, rate = 8 * R := ⟨rate / 8, by omega⟩
  have hcap : capacity = 1600 - 8 * R := by omega
  subst hR hcap
  constructor
  · rintro (⟨h1, h2⟩ | ⟨h1, h2, h3, h4⟩)
    · obtain ⟨n, rfl⟩ := Int.eq_ofNat_of_zero_le (show 0 ≤ R by omega)
      exact ⟨_, ⟨input.length + outLen.toNat + 1, fun fuel hfu =>
        keccak_eq (perm_of hf) (R := n) (by omega) (by omega) fuel input d outLen (by omega) (by omega)⟩⟩
    · subst h1
      refine ⟨[], 1, fun fuel hfu => ?_⟩
      obtain ⟨fu, rfl⟩ : ∃ fu, fuel = fu + 1 := ⟨fuel - 1, by omega⟩
      exact keccak_low hk fu R (by omega) (by omega) d outLen h2
  · intro hn fuel
    have hz : (List.replicate 200 0 : Bytes).length = 200 := by rw [List.length_replicate]
    show keccak f fuel (8 * R) (1600 - 8 * R) input d.toNat outLen = none
    simp only [keccak, if_neg (show ¬ (8 * R + (1600 - 8 * R) ≠ 1600 ∨ 8 * R % 8 ≠ 0) by omega), show 8 * R / 8 = R by omega]
    generalize (List.replicate 200 0 : Bytes) = z at hz
    rw [Option.bind_eq_bind, Option.bind_eq_none_iff]
    intro a ha
    have hal := absorb_len hk _ _ _ _ _ _ _ hz ha
    by_cases h1 : 200 < R
    · rw [pad_high hk h1 _ _ hal]; rfl
    · have hR0 : R ≤ 0 := by
        by_contra h
        exact hn (.inl ⟨by omega, by omega⟩)
      by_cases h2 : input = []
      · rw [Option.bind_eq_bind, Option.bind_eq_none_iff]
        intro b hb
        rw [pad] at hb
        obtain ⟨t, e1, hb⟩ := Option.bind_eq_some_iff.1 hb
        obtain ⟨u, e2, hb⟩ := Option.bind_eq_some_iff.1 hb
        obtain ⟨v, e3, hb⟩ := Option.bind_eq_some_iff.1 hb
        have ht : t.length = 200 := by rw [xorB_len e1, hal]
        have hu := permuteIf_len hk ht e2
        have hv : v.length = 200 := by rw [xorB_len e3, hu]
        obtain ⟨w, hw, hwl⟩ := hk v hv
        have hbw : w = b := by
          rw [hw] at hb
          exact Option.some.inj hb
        subst hbw
        by_cases h3 : outLen ≤ 0
        · have h4 : R < -199 := by
            by_contra h
            exact hn (.inr ⟨h2, h3, by omega, by omega⟩)
          rw [xorB, getB, index, hu, if_neg (by omega), if_neg (by omega)] at e3
          cases e3
        · rw [squeeze_stuck hR0 hk fuel w [] outLen hwl (by omega)]; rfl
      · rw [absorb_stuck hR0 input h2 hk fuel z 0 0 hz (by omega)] at ha
        cases ha

/-! ## Concrete cases -/

/-- A state of 200 bytes. -/
example : (List.replicate 200 0 : Bytes).length = 200 := List.length_replicate

/-- The largest and the smallest rate. -/
example : (0 : Int) < 1600 ∧ (1600 : Int) % 8 = 0 ∧ (1600 : Int) + 0 = 1600 ∧ (0 : Int) < 8 ∧ (8 : Int) + 1592 = 1600 := by decide

/-- A suffix of seven bits, with a rate for which the padding may need another block. -/
example : Bits.DelimitedBy [true, true, true, true, true, true, false] 0xBF := by decide

/-- A rate that passes the check although the permutation is not that wide: with an exception or an endless loop. -/
example : (1608 : Int) + (-8) = 1600 ∧ (1608 : Int) % 8 = 0 := by decide

example : Fails (fun fuel => keccak Plain.permute fuel 1608 (-8) [1] ((0x1F : Byte).toNat) 32) :=
  (C55_defined .plain 1608 (-8) (by decide) (by decide) [1] 0x1F 32).2 (by decide)

/-- A rate of zero returns only for the empty message and the empty output. -/
example : (∃ o, Returns (fun fuel => keccak Plain.permute fuel 0 1600 [] ((0x1F : Byte).toNat) 0) (some o)) ∧
    Fails (fun fuel => keccak Plain.permute fuel 0 1600 [] ((0x1F : Byte).toNat) 1) :=
  ⟨(C55_defined .plain 0 1600 (by decide) (by decide) [] 0x1F 0).1 (by decide),
   (C55_defined .plain 0 1600 (by decide) (by decide) [] 0x1F 1).2 (by decide)⟩

end Py202
