import Verif.Proofs.SimdFast

/-!
# Property C45: the SIMD implementations keep independent states

The implementations of `KeccakP-1600-times2-SIMD128.c` and `KeccakP-1600-times4-SIMD256.c` keep their states interleaved: byte `j` of
state `k` is at `8 * (j / 8 * N + k) + j % 8` (`Simd.view N`).  In terms of these states every function does what
`doc/PlSnP-documentation.h` says, the permutations being those of FIPS 202, whatever the unrolling and whatever the uninitialised
local variables contain.
-/

namespace ParallelSimd

open Simd
open PlSpec (Independent)
open PlSnPFallback (ofPar absorbed iterations keccak Perm)
open KeccakP1600.Opt64 (Unrolling)

/-- C45: the implementation of two states for 128-bit vectors, with and without the XOP instructions. -/
theorem C45_times2 (xop : Bool) (unr : Unrolling) (J : Times2.Junk) : Independent (Times2.impl xop unr J) 200 keccak (view 2) :=
  Times2.impl_ok xop unr J

/-- C45: the implementation of four states for 256-bit vectors. -/
theorem C45_times4 (unr : Unrolling) (J : Times4.Junk) : Independent (Times4.impl unr J) 200 keccak (view 4) :=
  Times4.impl_ok unr J

/-- C45: the states are where the documentation of the layout says, and do not overlap. -/
theorem C45_view {N : Nat} (mem : Bytes) (hm : mem.length = 200 * N) (k : Nat) (hk : k < N) (j : Nat) (hj : j < 200) :
    (view N mem k)[j]? = mem[8 * (j / 8 * N + k) + j % 8]? ∧
    ∀ k' < N, ∀ j' < 200, 8 * (j / 8 * N + k) + j % 8 = 8 * (j' / 8 * N + k') + j' % 8 → k = k' ∧ j = j' := by
  refine ⟨?_, fun k' hk' j' _ h => pos_inj hk hk' h⟩
  have h1 : pos N k j < mem.length := by
    have := Interleaved.lane_le (N := N) (i := k) hm hk (j / 8) (by omega)
    unfold pos; omega
  have h2 := getD_view N mem k j hj
  rw [List.getD_eq_getElem?_getD, List.getD_eq_getElem?_getD] at h2
  show _ = mem[pos N k j]?
  rw [List.getElem?_eq_getElem (by simpa using hj), List.getElem?_eq_getElem h1] at h2 ⊢
  exact congrArg some h2

/-- C45: the fallback layer (`PlSnP-Fallback.inc`) for four or eight states over two, and for eight states over four. -/
theorem C45_fallback (xop : Bool) (unr : Unrolling) (J2 : Times2.Junk) (J4 : Times4.Junk) :
    (∃ v, Independent (ofPar (Times2.impl xop unr J2) 4) 200 keccak v) ∧
    (∃ v, Independent (ofPar (Times2.impl xop unr J2) 8) 200 keccak v) ∧
    (∃ v, Independent (ofPar (Times4.impl unr J4) 8) 200 keccak v) :=
  ⟨PlSnPFallback.C41_parallel 4 (C45_times2 xop unr J2) (Nat.zero_lt_succ 1) (Nat.zero_lt_succ 15) (by decide : (2 : Nat) ∣ 4),
   PlSnPFallback.C41_parallel 8 (C45_times2 xop unr J2) (Nat.zero_lt_succ 1) (Nat.zero_lt_succ 15) (by decide : (2 : Nat) ∣ 8),
   PlSnPFallback.C41_parallel 8 (C45_times4 unr J4) (Nat.zero_lt_succ 3) (Nat.zero_lt_succ 31) (by decide : (4 : Nat) ∣ 8)⟩

/-- C45, `KeccakF1600times2_FastLoop_Absorb`: as the documentation says, as long as the pointer moves by no more than the data needed
for an iteration (see `C45_fastLoop_times2_false`). -/
theorem C45_fastLoop_times2_partial (xop : Bool) (unr : Unrolling) (J : Times2.Junk) (lc lp ls : Nat) (h25 : lc ≤ 25) (hls : 0 < ls)
    (hsp : ls ≤ lp + lc) (h32 : (lp + lc) * 8 < 2 ^ 32) (fuel : Nat) (mem data : Bytes) (len : Nat) (hf : len < fuel)
    (h64 : len < 2 ^ 64) (hd : len ≤ data.length) (hm : mem.length = 400) :
    ∃ mem', Times2.fastLoopAbsorb xop unr J fuel mem lc lp ls data len =
        some (mem', iterations 2 (lp * 8) (ls * 8) (lc * 8) len * (ls * 8)) ∧ mem'.length = 400 ∧
      ∀ k < 2, view 2 mem' k = absorbed (keccak .all) (ls * 8) (lc * 8) (iterations 2 (lp * 8) (ls * 8) (lc * 8) len) (view 2 mem k)
        (data.drop (k * (lp * 8))) :=
  Times2.fastLoopAbsorb_ok xop unr J ls hls h25 hsp h32 fuel mem data len hf h64 hd hm

/-- C45, `KeccakF1600times4_FastLoop_Absorb`, under the same condition. -/
theorem C45_fastLoop_times4_partial (unr : Unrolling) (J : Times4.Junk) (lc lp ls : Nat) (h25 : lc ≤ 25) (hls : 0 < ls)
    (hsp : ls ≤ 3 * lp + lc) (h32 : (3 * lp + lc) * 8 < 2 ^ 32) (fuel : Nat) (mem data : Bytes) (len : Nat) (hf : len < fuel)
    (h64 : len < 2 ^ 64) (hd : len ≤ data.length) (hm : mem.length = 800) :
    ∃ mem', Times4.fastLoopAbsorb unr J fuel mem lc lp ls data len =
        some (mem', iterations 4 (lp * 8) (ls * 8) (lc * 8) len * (ls * 8)) ∧ mem'.length = 800 ∧
      ∀ k < 4, view 4 mem' k = absorbed (keccak .all) (ls * 8) (lc * 8) (iterations 4 (lp * 8) (ls * 8) (lc * 8) len) (view 4 mem k)
        (data.drop (k * (lp * 8))) :=
  Times4.fastLoopAbsorb_ok ls hls hsp h32 fuel mem data len hf h64 hd hm unr J h25

/-- C45, `KeccakP1600times4_12rounds_FastLoop_Absorb`, under the same condition. -/
theorem C45_fastLoop12_times4_partial (unr : Unrolling) (J : Times4.Junk) (lc lp ls : Nat) (h25 : lc ≤ 25) (hls : 0 < ls)
    (hsp : ls ≤ 3 * lp + lc) (h32 : (3 * lp + lc) * 8 < 2 ^ 32) (fuel : Nat) (mem data : Bytes) (len : Nat) (hf : len < fuel)
    (h64 : len < 2 ^ 64) (hd : len ≤ data.length) (hm : mem.length = 800) :
    ∃ mem', Times4.fastLoopAbsorb12 unr J fuel mem lc lp ls data len =
        some (mem', iterations 4 (lp * 8) (ls * 8) (lc * 8) len * (ls * 8)) ∧ mem'.length = 800 ∧
      ∀ k < 4, view 4 mem' k = absorbed (keccak .r12) (ls * 8) (lc * 8) (iterations 4 (lp * 8) (ls * 8) (lc * 8) len) (view 4 mem k)
        (data.drop (k * (lp * 8))) :=
  Times4.fastLoopAbsorb12_ok ls hls hsp h32 fuel mem data len hf h64 hd hm unr J h25

/-- The states of an object. -/
def states (N : Nat) (mem : Bytes) : List Bytes := (List.range N).map (view N mem)

/-- What is computed, in terms of the list of states used in the models of `KangarooTwelve` and of the other tree hash functions. -/
theorem model_of {N : Nat} {P : SnP} (hP : P.Valid) (hw : P.width = 200) (hN : 0 < N) {lc lp ls : Nat} (h25 : lc ≤ 25) (hls : 0 < ls)
    (hsp : ls ≤ (N - 1) * lp + lc) (h32 : ((N - 1) * lp + lc) * 8 < 2 ^ 32) {fuel : Nat} {mem data : Bytes} {len : Nat} (hf : len < fuel)
    (h64 : len < 2 ^ 64) (hd : len ≤ data.length) {r : Option (Bytes × Nat)}
    (h : ∃ mem', r = some (mem', iterations N (lp * 8) (ls * 8) (lc * 8) len * (ls * 8)) ∧ mem'.length = 200 * N ∧
      ∀ k < N, view N mem' k = absorbed P.permute (ls * 8) (lc * 8) (iterations N (lp * 8) (ls * 8) (lc * 8) len) (view N mem k)
        (data.drop (k * (lp * 8)))) :
    r.map (fun r => (states N r.1, r.2)) = PlSnP.fastLoopAbsorb P lc lp ls fuel (states N mem) data len := by
  obtain ⟨mem', e, -, hv⟩ := h
  rw [PlSnPFallback.C41_fastLoop_partial hP lc lp ls (by omega) hls N hN hsp h32 fuel (states N mem) data len hf h64 (by simp [states])
    (fun s hs => by
      obtain ⟨k, -, rfl⟩ := List.mem_map.mp hs
      rw [length_view, hw]) hd, e, Option.map_some]
  refine congrArg some (Prod.ext (List.ext_getElem? fun k => ?_) rfl)
  simp only [states, List.getElem?_map, List.getElem?_mapIdx]
  by_cases hk : k < N
  · rw [List.getElem?_range hk]
    simp only [Option.map_some]
    rw [hv k hk]
  · rw [List.getElem?_eq_none (by simpa using hk)]; rfl

/-- C45: the fast loops compute what the model of the tree hash functions says of the list of states. -/
theorem C45_fastLoop_model {P : SnP} (hP : P.Valid) (hw : P.width = 200) (xop : Bool) (unr : Unrolling) (J2 : Times2.Junk) (J4 : Times4.Junk)
    (lc lp ls : Nat) (h25 : lc ≤ 25) (hls : 0 < ls) (hsp : ls ≤ lp + lc) (h32 : (3 * lp + lc) * 8 < 2 ^ 32) (fuel : Nat)
    (mem2 mem4 data : Bytes) (len : Nat) (hf : len < fuel) (h64 : len < 2 ^ 64) (hd : len ≤ data.length) (hm2 : mem2.length = 400)
    (hm4 : mem4.length = 800) :
    (P.permute = keccak .all →
      (Times2.fastLoopAbsorb xop unr J2 fuel mem2 lc lp ls data len).map (fun r => (states 2 r.1, r.2)) =
        PlSnP.fastLoopAbsorb P lc lp ls fuel (states 2 mem2) data len ∧
      (Times4.fastLoopAbsorb unr J4 fuel mem4 lc lp ls data len).map (fun r => (states 4 r.1, r.2)) =
        PlSnP.fastLoopAbsorb P lc lp ls fuel (states 4 mem4) data len) ∧
    (P.permute = keccak .r12 →
      (Times4.fastLoopAbsorb12 unr J4 fuel mem4 lc lp ls data len).map (fun r => (states 4 r.1, r.2)) =
        PlSnP.fastLoopAbsorb P lc lp ls fuel (states 4 mem4) data len) := by
  refine ⟨fun hp => ⟨model_of hP hw (by omega) h25 hls (by omega) (by omega) hf h64 hd ?_,
    model_of hP hw (by omega) h25 hls (by omega) (by omega) hf h64 hd ?_⟩,
    fun hp => model_of hP hw (by omega) h25 hls (by omega) (by omega) hf h64 hd ?_⟩
  · rw [hp]; exact C45_fastLoop_times2_partial xop unr J2 lc lp ls h25 hls hsp (by omega) fuel mem2 data len hf h64 hd hm2
  · rw [hp]; exact C45_fastLoop_times4_partial unr J4 lc lp ls h25 hls (by omega) h32 fuel mem4 data len hf h64 hd hm4
  · rw [hp]; exact C45_fastLoop12_times4_partial unr J4 lc lp ls h25 hls (by omega) h32 fuel mem4 data len hf h64 hd hm4

/-- The condition is needed: 16 bytes of data, blocks of one lane one lane apart, and a pointer moving by three lanes. -/
theorem C45_fastLoop_times2_false (xop : Bool) (unr : Unrolling) (J : Times2.Junk) (fuel : Nat) (mem : Bytes) :
    Times2.fastLoopAbsorb xop unr J fuel mem 1 1 3 (Bytes.zeros 16) 16 = none := by
  unfold Times2.fastLoopAbsorb
  rw [if_neg (by decide)]
  refine absorbLoop_none (by decide) (by decide) (by decide) (by decide) (fun m => ?_) fuel mem
  have h : Times2.xorIn ((Bytes.zeros 16).drop (3 * 8 % 2 ^ 32)) 1 0 m = none := by
    unfold Times2.xorIn
    cases loadVec 2 m (16 * 0) <;> rfl
  have h2 : Times2.addLanesAll m ((Bytes.zeros 16).drop (3 * 8 % 2 ^ 32)) 1 1 = none := by
    show ((Times2.xorIn ((Bytes.zeros 16).drop (3 * 8 % 2 ^ 32)) 1 0 m).bind _) = none
    rw [h]; rfl
  unfold Times2.body
  rw [h2]; rfl

/-- The condition is needed: 32 bytes of data, blocks of one lane one lane apart, and a pointer moving by five lanes. -/
theorem C45_fastLoop_times4_false (unr : Unrolling) (J : Times4.Junk) (fuel : Nat) (mem : Bytes) :
    Times4.fastLoopAbsorb unr J fuel mem 1 1 5 (Bytes.zeros 32) 32 = none ∧
    Times4.fastLoopAbsorb12 unr J fuel mem 1 1 5 (Bytes.zeros 32) 32 = none :=
  ⟨absorbLoop_none (by decide) (by decide) (by decide) (by decide) (fun _ => rfl) fuel mem,
   absorbLoop_none (by decide) (by decide) (by decide) (by decide) (fun _ => rfl) fuel mem⟩

/-- The conditions hold for the calls made by `KangarooTwelve` (168-byte blocks in leaves of 8192 bytes) and `ParallelHash`. -/
example : (21 ≤ 25 ∧ 0 < 21 ∧ 21 ≤ 3 * 1024 + 21 ∧ (3 * 1024 + 21) * 8 < 2 ^ 32) ∧ 21 ≤ 1024 + 21 ∧ (1024 + 21) * 8 < 2 ^ 32 := by decide

end ParallelSimd
