import Verif.Proofs.XoodooSimd
import Verif.Props.Xoodoo

/-!
# Property C47: the SIMD implementations of several instances of Xoodoo keep independent states

The implementations of `Xoodoo-times4` (SSSE3 or XOP, AVX-512), `Xoodoo-times8` (AVX2, AVX-512) and `Xoodoo-times16` (AVX-512) keep
their states interleaved: byte `j` of state `k` is at `4 * (j / 4 * N + k) + j % 4` (`Simd32.view N`).  In terms of these states every
function does what `doc/PlSnP-documentation.h` says, the permutations being Xoodoo[12] and Xoodoo[6].
-/

namespace XoodooSimd

open Simd32
open PlSpec (Independent)
open PlSnPFallback (ofPar Perm)

/-- C47: what the functions apply to the 48 bytes of a state is Xoodoo[12] or Xoodoo[6]. -/
theorem C47_permutations (s : Bytes) (hs : s.length = 48) :
    ((refPerm .r12 s).length = 48 ∧ Bits.ofBytes (refPerm .r12 s) = Spec.Xoodoo.xoodoo 12 (Bits.ofBytes s)) ∧
    ((refPerm .r6 s).length = 48 ∧ Bits.ofBytes (refPerm .r6 s) = Spec.Xoodoo.xoodoo 6 (Bits.ofBytes s)) :=
  ⟨(Xoodoo.C42_ref s hs).1 12 (by decide), (Xoodoo.C42_ref s hs).1 6 (by decide)⟩

/-- C47: the implementation of four states for 128-bit vectors, with and without the XOP instructions. -/
theorem C47_times4 (xop : Bool) : Independent (times4 xop) 48 refPerm (view 4) := times4_ok xop

/-- C47: the implementation of eight states for 256-bit vectors. -/
theorem C47_times8 : Independent times8 48 refPerm (view 8) := times8_ok

/-- C47: the implementations of sixteen, eight and four states with the AVX-512 instructions. -/
theorem C47_avx512 (N : Nat) (hN : N = 16 ∨ N = 8 ∨ N = 4) : Independent (avx512 N) 48 refPerm (view N) :=
  avx512_ok (by omega)

/-- C47: `PermuteAll_12rounds` and `PermuteAll_6rounds` of the five implementations, on the bits of each state. -/
theorem C47_permuteAll {I : PlSnPFallback.Par} {N : Nat}
    (h : (∃ xop, I = times4 xop ∧ N = 4) ∨ (I = times8 ∧ N = 8) ∨ (I = avx512 N ∧ (N = 16 ∨ N = 8 ∨ N = 4)))
    (mem : Bytes) (hm : mem.length = 48 * N) :
    (∃ mem', I.permuteAll .r12 mem = some mem' ∧ mem'.length = 48 * N ∧
      ∀ k < N, Bits.ofBytes (view N mem' k) = Spec.Xoodoo.xoodoo 12 (Bits.ofBytes (view N mem k))) ∧
    (∃ mem', I.permuteAll .r6 mem = some mem' ∧ mem'.length = 48 * N ∧
      ∀ k < N, Bits.ofBytes (view N mem' k) = Spec.Xoodoo.xoodoo 6 (Bits.ofBytes (view N mem k))) := by
  have key : Independent I 48 refPerm (view N) ∧ I.par = N ∧ I.size = 48 * N := by
    rcases h with ⟨xop, rfl, rfl⟩ | ⟨rfl, rfl⟩ | ⟨rfl, hN⟩
    · exact ⟨C47_times4 xop, rfl, rfl⟩
    · exact ⟨C47_times8, rfl, rfl⟩
    · exact ⟨C47_avx512 N hN, rfl, rfl⟩
  obtain ⟨hI, hp, hs⟩ := key
  have one : ∀ p, ∃ mem', I.permuteAll p mem = some mem' ∧ mem'.length = 48 * N ∧ ∀ k < N, view N mem' k = refPerm p (view N mem k) := by
    intro p
    obtain ⟨m', h1, h2, h3⟩ := hI.permuteAll mem (hm.trans hs.symm) p
    exact ⟨m', h1, h2.trans hs, fun k hk => h3 k (by rw [hp]; exact hk)⟩
  obtain ⟨m1, a1, b1, c1⟩ := one .r12
  obtain ⟨m2, a2, b2, c2⟩ := one .r6
  refine ⟨⟨m1, a1, b1, fun k hk => ?_⟩, ⟨m2, a2, b2, fun k hk => ?_⟩⟩
  · rw [c1 k hk]; exact (C47_permutations _ (length_view _ _ _)).1.2
  · rw [c2 k hk]; exact (C47_permutations _ (length_view _ _ _)).2.2

/-- C47: the states are at these places of the object and do not overlap. -/
theorem C47_view {N : Nat} (mem : Bytes) (hm : mem.length = 48 * N) (k : Nat) (hk : k < N) (j : Nat) (hj : j < 48) :
    (view N mem k)[j]? = mem[4 * (j / 4 * N + k) + j % 4]? ∧
    ∀ k' < N, ∀ j' < 48, 4 * (j / 4 * N + k) + j % 4 = 4 * (j' / 4 * N + k') + j' % 4 → k = k' ∧ j = j' := by
  refine ⟨?_, fun k' hk' j' _ h => pos_inj hk hk' h⟩
  have h1 : pos N k j < mem.length := by
    have := Interleaved32.lane_le (N := N) (i := k) hm hk (j / 4) (by omega)
    unfold pos; omega
  have h2 := getD_view N mem k j hj
  rw [List.getD_eq_getElem?_getD, List.getD_eq_getElem?_getD] at h2
  show _ = mem[pos N k j]?
  rw [List.getElem?_eq_getElem (by simpa using hj), List.getElem?_eq_getElem h1] at h2 ⊢
  exact congrArg some h2

/-- C47: the fallback layer (`PlSnP-Fallback.inc`) for eight or sixteen states over four, and for sixteen states over eight. -/
theorem C47_fallback (xop : Bool) :
    (∃ v, Independent (ofPar (times4 xop) 8) 48 refPerm v) ∧
    (∃ v, Independent (ofPar (times4 xop) 16) 48 refPerm v) ∧
    (∃ v, Independent (ofPar times8 16) 48 refPerm v) :=
  ⟨PlSnPFallback.C41_parallel 8 (C47_times4 xop) (Nat.zero_lt_succ 3) (Nat.zero_lt_succ 15) (by decide : (4 : Nat) ∣ 8),
   PlSnPFallback.C41_parallel 16 (C47_times4 xop) (Nat.zero_lt_succ 3) (Nat.zero_lt_succ 15) (by decide : (4 : Nat) ∣ 16),
   PlSnPFallback.C41_parallel 16 C47_times8 (Nat.zero_lt_succ 7) (Nat.zero_lt_succ 31) (by decide : (8 : Nat) ∣ 16)⟩

/-- What is written to a state is read back from that state and not from another one. -/
example : (((avx512 4).overwriteBytes (Bytes.zeros 192) 3 [1, 2, 3, 4, 5] 43).bind fun mem =>
    ((avx512 4).extractBytes mem 3 43 5).bind fun a => ((avx512 4).extractBytes mem 2 43 5).map fun b => (a, b)) =
      some ([1, 2, 3, 4, 5], [0, 0, 0, 0, 0]) := by decide +kernel

/-- The hypotheses of the lanes functions of sixteen states can be met: blocks of twelve lanes, one after the other. -/
example : 12 * 4 ≤ 48 ∧ 12 ≤ 12 ∧ 16 * (12 * 4) < 2 ^ 32 ∧ PlSpec.InBuf 16 (12 * 4) (12 * 4) (Bytes.zeros 768) := by
  refine ⟨by decide, by decide, by decide, fun k hk => ?_⟩
  rw [show (Bytes.zeros 768).length = 768 from List.length_replicate ..]
  omega

end XoodooSimd
