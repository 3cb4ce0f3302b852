import Verif.Proofs.Times2NeonLanes

/-!
# Property C69: the two-state ARMv7-A NEON implementation of Keccak-p[1600] in assembly

`Times2Neon` is a model of `KeccakP-1600-inplace-pl2-armv7a-neon-le-gcc.s`, instruction by instruction.  The specifications are `Spec/PlSnP.lean` (the documentation
of parallel states) and `Spec/KeccakP.lean` (FIPS 202).
-/

namespace Times2Neon

open PlSpec (Independent)
open PlSnPFallback (keccak ofPar Perm)
open Simd (view)

/-- C69: the functions act as documented on two independent states, whatever is in the registers and on the stack and whatever the addresses of the buffers are. -/
theorem C69_independent (J : Junk) (A : Addr) (h8 : J.sp % 8 = 0) (hsp : 72 ≤ J.sp) : Independent (impl J A) 200 keccak (view 2) :=
  impl_ok J A h8 hsp

/-- The number of rounds of a permutation function. -/
def rounds : Perm → Nat
  | .all => 24
  | .r12 => 12
  | .r6 => 6
  | .r4 => 4

/-- C69: the permutation functions compute KECCAK-p[1600, nr] of FIPS 202 on each of the two states. -/
theorem C69_permute (J : Junk) (h8 : J.sp % 8 = 0) (hsp : 72 ≤ J.sp) (p : Perm) (st : Bytes) :
    ∃ st', permuteAll J p st = some st' ∧ st'.length = 400 ∧
      ∀ k < 2, Bits.ofBytes (view 2 st' k) = Spec.KeccakP.keccakP (rounds p) (Bits.ofBytes (view 2 st k)) := by
  obtain ⟨st', e, l, v⟩ := permuteAll_ok J h8 hsp p st
  refine ⟨st', e, l, fun k hk => ?_⟩
  rw [v k hk]
  cases p
  · exact (KeccakP1600.C37_ref 24 (by decide) _ (by simp)).2
  · exact (KeccakP1600.C37_ref 12 (by decide) _ (by simp)).2
  · exact (KeccakP1600.C37_ref 6 (by decide) _ (by simp)).2
  · exact (KeccakP1600.C37_ref 4 (by decide) _ (by simp)).2

/-- C69: the functions on lanes do not depend on the addresses of the buffers, which decide between the aligned and the unaligned loops. -/
theorem C69_addresses (J : Junk) (A B : Addr) (h8 : J.sp % 8 = 0) (hsp : 72 ≤ J.sp) (mem input out : Bytes) (lc lo : Nat) (hm : mem.length = 400)
    (h25 : lc * 8 ≤ 200) (h32 : 2 * (lo * 8) < 2 ^ 32) (hlo : lc ≤ lo) (hi : PlSpec.InBuf 2 (lo * 8) (lc * 8) input)
    (ho : PlSpec.InBuf 2 (lo * 8) (lc * 8) out) :
    (impl J A).extractLanesAll mem out lc lo = (impl J B).extractLanesAll mem out lc lo ∧
    (impl J A).extractAndAddLanesAll mem input out lc lo = (impl J B).extractAndAddLanesAll mem input out lc lo :=
  ⟨((C69_independent J A h8 hsp).extractLanesAll mem hm out lc lo h25 h32 hlo ho).trans
      ((C69_independent J B h8 hsp).extractLanesAll mem hm out lc lo h25 h32 hlo ho).symm,
    ((C69_independent J A h8 hsp).extractAndAddLanesAll mem hm input out lc lo h25 h32 hlo hi ho).trans
      ((C69_independent J B h8 hsp).extractAndAddLanesAll mem hm input out lc lo h25 h32 hlo hi ho).symm⟩

/-- C69: four and eight states by the fallback layer (`PlSnP-Fallback.inc`) over this implementation. -/
theorem C69_fallback (J : Junk) (A : Addr) (h8 : J.sp % 8 = 0) (hsp : 72 ≤ J.sp) :
    (∃ v, Independent (ofPar (impl J A) 4) 200 keccak v) ∧ (∃ v, Independent (ofPar (impl J A) 8) 200 keccak v) :=
  ⟨PlSnPFallback.C41_parallel 4 (C69_independent J A h8 hsp) (Nat.zero_lt_succ 1) (Nat.zero_lt_succ 31) (by decide : (2 : Nat) ∣ 4),
    PlSnPFallback.C41_parallel 8 (C69_independent J A h8 hsp) (Nat.zero_lt_succ 1) (Nat.zero_lt_succ 31) (by decide : (2 : Nat) ∣ 8)⟩

/-! ## Concrete cases -/

/-- Registers and stack with some contents; the stack pointer is a multiple of 8 but not of 16. -/
def someJunk : Junk := ⟨fun i l => BitVec.ofNat 64 (i + l.val), fun i l => BitVec.ofNat 64 (3 * i + l.val), 5, 6, 0x7FF8⟩

-- both kinds of addresses
example : Independent (impl someJunk ⟨8, 16, 24⟩) 200 keccak (view 2) := C69_independent _ _ (by decide) (by decide)
example : Independent (impl someJunk ⟨9, 16, 26⟩) 200 keccak (view 2) := C69_independent _ _ (by decide) (by decide)

-- adding 20 bytes at offset 5 of the second state: the first loop, a lane and the last loop
example : ∃ mem', (impl someJunk ⟨9, 16, 26⟩).addBytes (Bytes.zeros 400) 1 (List.replicate 20 0xFF) 5 = some mem' ∧
    view 2 mem' 0 = view 2 (Bytes.zeros 400) 0 ∧ (view 2 mem' 1).getD 4 0 = 0 ∧ (view 2 mem' 1).getD 5 0 = 0xFF ∧
    (view 2 mem' 1).getD 24 0 = 0xFF ∧ (view 2 mem' 1).getD 25 0 = 0 := by
  obtain ⟨mem', e, _, h1, h2⟩ := (C69_independent someJunk ⟨9, 16, 26⟩ (by decide) (by decide)).addBytes (Bytes.zeros 400) (by decide +kernel) 1
    (by decide) (List.replicate 20 0xFF) 5 (by decide)
  refine ⟨mem', e, h2 0 (by decide) (by decide), ?_⟩
  rw [h1]
  decide +kernel

-- three lanes, an odd number, from a buffer at a multiple of 8, four lanes apart
example : ∃ mem', (impl someJunk ⟨8, 16, 24⟩).overwriteLanesAll (Bytes.zeros 400) ((List.range 56).map (BitVec.ofNat 8)) 3 4 = some mem' ∧
    (view 2 mem' 0).getD 23 0 = 23 ∧ (view 2 mem' 1).getD 0 0 = 32 ∧ (view 2 mem' 1).getD 23 0 = 55 ∧ (view 2 mem' 1).getD 24 0 = 0 := by
  obtain ⟨mem', e, _, h⟩ := (C69_independent someJunk ⟨8, 16, 24⟩ (by decide) (by decide)).overwriteLanesAll (Bytes.zeros 400) (by decide +kernel)
    ((List.range 56).map (BitVec.ofNat 8)) 3 4 (by decide) (by decide)
    (show ∀ k < 2, k * (4 * 8) + 3 * 8 ≤ ((List.range 56).map (BitVec.ofNat 8)).length by decide +kernel)
  refine ⟨mem', e, ?_⟩
  rw [h 0 (by decide), h 1 (by decide)]
  decide +kernel

-- six rounds
example : ∃ st', permuteAll someJunk .r6 (List.replicate 400 0x5A) = some st' ∧ st'.length = 400 ∧
    ∀ k < 2, Bits.ofBytes (view 2 st' k) = Spec.KeccakP.keccakP 6 (Bits.ofBytes (view 2 (List.replicate 400 0x5A) k)) :=
  C69_permute someJunk (by decide) (by decide) .r6 _

end Times2Neon
