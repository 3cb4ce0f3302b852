import Verif.Proofs.Avx512Leaves
import Verif.Props.KangarooTwelve
import Verif.Props.ParallelSimd

/-!
# Property C49: the AVX-512 implementations of two, four and eight Keccak-p[1600] states

The implementations of `KeccakP-1600-times{2,4,8}-SIMD512.c` keep their states interleaved as the ones of C45 do.  In terms of these states
every function does what `doc/PlSnP-documentation.h` says, the permutations being those of FIPS 202, whatever the unrolling.  The functions
that process eight leaves of KT128 and KT256 at once give the chaining values of RFC 9861.
-/

namespace KeccakAvx512

open Avx512
open Simd (view)
open PlSpec (Independent)
open PlSnPFallback (ofPar absorbed iterations keccak)
open PlSnP (Cfg)

/-- C49: every function of the three implementations keeps independent states. -/
theorem C49_times (f : File) (unr : Unrolling) : Independent (impl f unr) 200 keccak (view f.n) := impl_ok f unr

/-- C49: the fallback layer (`PlSnP-Fallback.inc`) over the implementations of two and of four states. -/
theorem C49_fallback (unr : Unrolling) :
    (∃ v, Independent (ofPar (impl .x2 unr) 4) 200 keccak v) ∧ (∃ v, Independent (ofPar (impl .x2 unr) 8) 200 keccak v) ∧
    (∃ v, Independent (ofPar (impl .x4 unr) 8) 200 keccak v) :=
  ⟨PlSnPFallback.C41_parallel 4 (C49_times .x2 unr) (Nat.zero_lt_succ 1) (Nat.zero_lt_succ 63) (by decide : (2 : Nat) ∣ 4),
   PlSnPFallback.C41_parallel 8 (C49_times .x2 unr) (Nat.zero_lt_succ 1) (Nat.zero_lt_succ 63) (by decide : (2 : Nat) ∣ 8),
   PlSnPFallback.C41_parallel 8 (C49_times .x4 unr) (Nat.zero_lt_succ 3) (Nat.zero_lt_succ 63) (by decide : (4 : Nat) ∣ 8)⟩

/-- C49, the functions `KeccakF1600times*_FastLoop_Absorb`: as the documentation says, as long as the pointer moves by no more than the data
needed for an iteration (see `C49_fastLoop_false`). -/
theorem C49_fastLoop_partial (f : File) (unr : Unrolling) (lc lp ls : Nat) (h25 : lc ≤ 25) (hls : 0 < ls)
    (hsp : ls ≤ (f.n - 1) * lp + lc) (h32 : ((f.n - 1) * lp + lc) * 8 < 2 ^ 32) (fuel : Nat) (mem data : Bytes) (len : Nat) (hf : len < fuel)
    (h64 : len < 2 ^ 64) (hd : len ≤ data.length) (hm : mem.length = 200 * f.n) :
    ∃ mem', fastLoopAbsorb f unr fuel mem lc lp ls data len =
        some (mem', iterations f.n (lp * 8) (ls * 8) (lc * 8) len * (ls * 8)) ∧ mem'.length = 200 * f.n ∧
      ∀ k < f.n, view f.n mem' k = absorbed (keccak .all) (ls * 8) (lc * 8) (iterations f.n (lp * 8) (ls * 8) (lc * 8) len)
        (view f.n mem k) (data.drop (k * (lp * 8))) :=
  fastLoopAbsorb_ok f ls hls hsp h32 fuel mem data len hf h64 hd hm unr h25

/-- C49, the functions `KeccakP1600times*_12rounds_FastLoop_Absorb`, under the same condition. -/
theorem C49_fastLoop12_partial (f : File) (unr : Unrolling) (lc lp ls : Nat) (h25 : lc ≤ 25) (hls : 0 < ls)
    (hsp : ls ≤ (f.n - 1) * lp + lc) (h32 : ((f.n - 1) * lp + lc) * 8 < 2 ^ 32) (fuel : Nat) (mem data : Bytes) (len : Nat) (hf : len < fuel)
    (h64 : len < 2 ^ 64) (hd : len ≤ data.length) (hm : mem.length = 200 * f.n) :
    ∃ mem', fastLoopAbsorb12 f unr fuel mem lc lp ls data len =
        some (mem', iterations f.n (lp * 8) (ls * 8) (lc * 8) len * (ls * 8)) ∧ mem'.length = 200 * f.n ∧
      ∀ k < f.n, view f.n mem' k = absorbed (keccak .r12) (ls * 8) (lc * 8) (iterations f.n (lp * 8) (ls * 8) (lc * 8) len)
        (view f.n mem k) (data.drop (k * (lp * 8))) :=
  fastLoopAbsorb12_ok f ls hls hsp h32 fuel mem data len hf h64 hd hm unr h25

/-- C49: the fast loops compute what the model of the tree hash functions says of the list of states. -/
theorem C49_fastLoop_model {P : SnP} (hP : P.Valid) (hw : P.width = 200) (f : File) (unr : Unrolling)
    (lc lp ls : Nat) (h25 : lc ≤ 25) (hls : 0 < ls) (hsp : ls ≤ (f.n - 1) * lp + lc) (h32 : ((f.n - 1) * lp + lc) * 8 < 2 ^ 32) (fuel : Nat)
    (mem data : Bytes) (len : Nat) (hf : len < fuel) (h64 : len < 2 ^ 64) (hd : len ≤ data.length) (hm : mem.length = 200 * f.n) :
    (P.permute = keccak .all → (fastLoopAbsorb f unr fuel mem lc lp ls data len).map (fun r => (ParallelSimd.states f.n r.1, r.2)) =
        PlSnP.fastLoopAbsorb P lc lp ls fuel (ParallelSimd.states f.n mem) data len) ∧
    (P.permute = keccak .r12 → (fastLoopAbsorb12 f unr fuel mem lc lp ls data len).map (fun r => (ParallelSimd.states f.n r.1, r.2)) =
        PlSnP.fastLoopAbsorb P lc lp ls fuel (ParallelSimd.states f.n mem) data len) := by
  refine ⟨fun hp => ParallelSimd.model_of hP hw (n_pos f) h25 hls hsp h32 hf h64 hd ?_,
    fun hp => ParallelSimd.model_of hP hw (n_pos f) h25 hls hsp h32 hf h64 hd ?_⟩
  · rw [hp]; exact C49_fastLoop_partial f unr lc lp ls h25 hls hsp h32 fuel mem data len hf h64 hd hm
  · rw [hp]; exact C49_fastLoop12_partial f unr lc lp ls h25 hls hsp h32 fuel mem data len hf h64 hd hm

/-- The condition is needed: blocks of one lane one lane apart, just enough data for one iteration, and a pointer moving one lane further than
that. -/
theorem C49_fastLoop_false (f : File) (unr : Unrolling) (fuel : Nat) (mem : Bytes) :
    fastLoopAbsorb f unr fuel mem 1 1 (f.n + 1) (Bytes.zeros (8 * f.n)) (8 * f.n) = none ∧
    fastLoopAbsorb12 f unr fuel mem 1 1 (f.n + 1) (Bytes.zeros (8 * f.n)) (8 * f.n) = none := by
  have h : ∀ p m, body f unr p 1 1 ((Bytes.zeros (8 * f.n)).drop ((f.n + 1) * 8 % 2 ^ 32)) m = none := by
    intro p m
    have h1 : ((Bytes.zeros (8 * f.n)).drop ((f.n + 1) * 8 % 2 ^ 32)) = [] := by cases f <;> rfl
    rw [h1]
    have h2 : addIn1 f [] 1 0 m = none := by
      unfold addIn1
      have h3 : gather f.n (index f 1) [] (8 * 0) = none := by
        unfold gather
        rw [if_neg]
        intro h
        have := (h ⟨0, n_pos f⟩).2
        simp at this
      rw [h3]
      cases Simd.loadVec f.n m (8 * f.n * 0) <;> rfl
    unfold body addLanesAll overLanes
    rw [if_neg (by decide)]
    show ((addIn1 f [] 1 0 m).bind _).bind _ = none
    rw [h2]; rfl
  constructor
  · unfold fastLoopAbsorb fastState
    rw [if_neg (by decide)]
    exact Simd.absorbLoop_none (by cases f <;> decide) (by cases f <;> decide) (by cases f <;> decide) (by cases f <;> decide) (h .all) fuel mem
  · unfold fastLoopAbsorb12 fastState
    rw [if_neg (by decide)]
    exact Simd.absorbLoop_none (by cases f <;> decide) (by cases f <;> decide) (by cases f <;> decide) (by cases f <;> decide) (h .r12) fuel mem

/-! ### KangarooTwelve -/

/-- C49: `KeccakP1600times8_KT128ProcessLeaves` and `KeccakP1600times8_KT256ProcessLeaves` write the chaining values of the eight leaves given
to them, one after the other, and nothing else. -/
theorem C49_processLeaves (unr : Unrolling) (input out : Bytes) (hi : 8 * 8192 ≤ input.length) :
    (8 * 32 ≤ out.length → ∃ cvs, kt128ProcessLeaves unr input out = some (cvs ++ out.drop (8 * 32)) ∧
      Bits.ofBytes cvs = (List.range 8).flatMap fun i =>
        Spec.TurboSHAKE (Spec.KeccakP.keccakP 12) 256 (Spec.ktChunk (Bits.ofBytes input) i) [true, true, false] 256) ∧
    (8 * 64 ≤ out.length → ∃ cvs, kt256ProcessLeaves unr input out = some (cvs ++ out.drop (8 * 64)) ∧
      Bits.ofBytes cvs = (List.range 8).flatMap fun i =>
        Spec.TurboSHAKE (Spec.KeccakP.keccakP 12) 512 (Spec.ktChunk (Bits.ofBytes input) i) [true, true, false] 512) :=
  ⟨fun ho => ⟨_, kt128_ok unr input out hi ho, KT.leafCVs_spec P12_ok.valid P12_ok.width _ P12_ok.permute (Or.inl rfl) 8 input⟩,
   fun ho => ⟨_, kt256_ok unr input out hi ho, KT.leafCVs_spec P12_ok.valid P12_ok.width _ P12_ok.permute (Or.inr rfl) 8 input⟩⟩

/-- The functions as they are called in `KangarooTwelve.c`, with an output buffer of the size of the chaining values. -/
def processLeaves (unr : Unrolling) (sec : Nat) (x : Bytes) : Bytes :=
  if sec = 128 then (kt128ProcessLeaves unr x (Bytes.zeros (8 * 32))).getD [] else (kt256ProcessLeaves unr x (Bytes.zeros (8 * 64))).getD []

/-- The parallel code used in `KangarooTwelve.c` with the AVX-512 implementations. -/
def cfgs (unr : Unrolling) (sec : Nat) : List Cfg := [⟨8, .processLeaves (processLeaves unr sec)⟩, ⟨4, .fastLoop⟩, ⟨2, .fastLoop⟩]

/-- C49: what C18 assumes of the functions for leaves. -/
theorem C49_cfg (unr : Unrolling) {sec : Nat} (hsec : sec = 128 ∨ sec = 256) :
    ∀ cfg ∈ cfgs unr sec, KT.CfgFits (Spec.KeccakP.keccakP 12) sec cfg := by
  intro cfg h
  simp only [cfgs, List.mem_cons, List.not_mem_nil, or_false] at h
  rcases h with rfl | rfl | rfl
  · refine ⟨(by decide : 2 ≤ 8), (by decide : 8 ≤ 2 ^ 18), ?_⟩
    intro F hF x hx
    injection hF with hF
    subst hF
    rcases hsec with rfl | rfl
    · obtain ⟨cvs, e, h⟩ := (C49_processLeaves unr x (Bytes.zeros (8 * 32)) (Nat.le_of_eq hx.symm)).1 (by rw [Bytes.length_zeros])
      unfold processLeaves
      rw [if_pos rfl, e, Option.getD_some, List.drop_eq_nil_of_le (by rw [Bytes.length_zeros]), List.append_nil]
      exact h
    · obtain ⟨cvs, e, h⟩ := (C49_processLeaves unr x (Bytes.zeros (8 * 64)) (Nat.le_of_eq hx.symm)).2 (by rw [Bytes.length_zeros])
      unfold processLeaves
      rw [if_neg (by decide), e, Option.getD_some, List.drop_eq_nil_of_le (by rw [Bytes.length_zeros]), List.append_nil]
      exact h
  · exact ⟨by decide, by decide, by simp⟩
  · exact ⟨by decide, by decide, by simp⟩

/-- C49: KT128 and KT256 with the AVX-512 code for leaves are those of RFC 9861. -/
theorem C49_KangarooTwelve {P : SnP} (h : KeccakP1600.Computes P 12) (unr : Unrolling) {sec : Nat} (hsec : sec = 128 ∨ sec = 256)
    (stack : KtInst) (M C : Bytes) (hM : M.length < 2 ^ 64) (hC : C.length < 2 ^ 64) (L : Nat) (hL : L ≠ 0) :
    ∃ out, KT.kangarooTwelve P (cfgs unr) stack sec M L C = some (0, out) ∧
      Bits.ofBytes out = Spec.KangarooTwelve (Spec.KeccakP.keccakP 12) sec (Bits.ofBytes M) (Bits.ofBytes C) (8 * L) :=
  KT.C18_KT_one_call h.valid h.width _ (fun s hs => h.permute s (hs.trans h.width.symm)) hsec (cfgs unr) (C49_cfg unr hsec) stack M C hM hC L hL

/-! ### The hypotheses can be met -/

-- the conditions hold for the calls made by `KangarooTwelve` (168-byte blocks in leaves of 8192 bytes)
example (f : File) : 21 ≤ 25 ∧ 0 < 21 ∧ 21 ≤ (f.n - 1) * 1024 + 21 ∧ ((f.n - 1) * 1024 + 21) * 8 < 2 ^ 32 := by cases f <;> decide

-- a message of eleven leaves
example (unr : Unrolling) (stack : KtInst) :
    ∃ out, KT.kangarooTwelve (KeccakP1600.Ref.snp 12) (cfgs unr) stack (128 : Nat) (Bytes.zeros 98000) 32 [1, 2] = some (0, out) ∧
      Bits.ofBytes out = Spec.KangarooTwelve (Spec.KeccakP.keccakP 12) 128 (Bits.ofBytes (Bytes.zeros 98000)) (Bits.ofBytes [1, 2]) (8 * 32) :=
  C49_KangarooTwelve P12_ok unr (Or.inl rfl) stack _ _ (by rw [Bytes.length_zeros]; decide) (by decide) 32 (by decide)

end KeccakAvx512
