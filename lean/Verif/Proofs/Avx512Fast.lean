import Verif.Proofs.Avx512Lanes
import Verif.Proofs.SimdFast

/-!
The `FastLoop_Absorb` functions of the AVX-512 implementations.
-/

namespace Avx512

open Simd
open PlSnPFallback (absorbed iterations keccak Perm)
open KeccakP1600 (bytesOfLanes)

variable {N lp lc m : Nat}

/-- State `k` kept in the variables. -/
def stateOf (A : V (Vec N)) (k : Nat) : Bytes := bytesOfLanes (lanesOf (fun v => v.at k) A)

theorem at_eq (k : Fin N) : (fun v : Vec N => v.at k.val) = fun v => v k := by
  funext v; rw [Vec.at, dif_pos k.isLt]

/-- Variables into which the first lanes of data were added. -/
theorem stateOf_xor {data : Bytes} {A A' : V (Vec N)} (k : Nat) (hk : k < N)
    (h : ∀ p < 25, A'.get p = if p < lc then Simd.xor (A.get p) (fun l => wd data (l.val * lp + p)) else A.get p) :
    stateOf A' k = Bytes.xorAt (stateOf A k) 0 (Bytes.slice data (k * (lp * 8)) (lc * 8)) := by
  unfold stateOf
  apply bytes_ext (by simp [KeccakP1600.length_bytesOfLanes])
  intro j hj
  rw [KeccakP1600.length_bytesOfLanes] at hj
  rw [getD_xorAt _ _ _ (by rw [KeccakP1600.length_bytesOfLanes]; exact hj), getD_bytesOfLanes _ _ hj, getD_bytesOfLanes _ _ hj, lanesOf_get,
    lanesOf_get, getD_slice]
  simp only
  rw [h (j / 8) (by omega)]
  by_cases hc : j < lc * 8
  · rw [if_pos (by omega), if_pos hc]
    have e : (Simd.xor (A.get (j / 8)) fun l : Fin N => wd data (l.val * lp + j / 8)).at k = (A.get (j / 8)).at k ^^^ wd data (k * lp + j / 8) := by
      simp only [Vec.at, dif_pos hk]; rfl
    rw [e, KeccakP1600.byteOf_xor, byteOf_wd data _ _ (by omega)]
    congr 2
    rw [← Nat.mul_assoc]; omega
  · rw [if_neg (by omega), if_neg hc]
    exact BitVec.xor_zero.symm

theorem rounds_stateOf {R : V (Vec N) → V (Vec N)} {n : Nat} (hR : ∀ (l : Fin N) s, lanesOf (fun v => v l) (R s) =
    KeccakP1600.Opt64.run (24 - n) n (lanesOf (fun v => v l) s)) (s : V (Vec N)) (k : Nat) (hk : k < N) :
    stateOf (R s) k = KeccakP1600.Ref.permuteNrounds n (stateOf s k) := by
  unfold stateOf
  rw [at_eq ⟨k, hk⟩, hR]
  show _ = bytesOfLanes (KeccakP1600.Ref.onWords _ _ (KeccakP1600.lanesOfBytes (bytesOfLanes _)) n)
  rw [KeccakP1600.lanesOfBytes_bytesOfLanes]; rfl

theorem addVar_eq {idx : Nat → BitVec 32} (hidx : IdxOk N N lp idx) (hN : 0 < N) {data : Bytes} (ha : Acc N lp lc data) (x : Vec N) (p : Nat)
    (hp : p < lc) : addVar idx data x p = some (Simd.xor x fun l => wd data (l.val * lp + p)) := by
  unfold addVar
  rw [gather_eq hidx hN (Nat.mul_one _).symm (by omega) ha p (by omega)]
  refine congrArg some (congrArg _ (funext fun l => ?_))
  rw [Nat.mod_eq_of_lt l.isLt, Nat.div_eq_of_lt l.isLt]; rfl

theorem addVars21_ok {idx : Nat → BitVec 32} (hidx : IdxOk N N lp idx) (hN : 0 < N) {data : Bytes} (ha : Acc N lp 21 data) (A : V (Vec N)) :
    ∃ A', addVars21 idx data A = some A' ∧
      ∀ p < 25, A'.get p = if p < 21 then Simd.xor (A.get p) (fun l => wd data (l.val * lp + p)) else A.get p := by
  have h := fun x p hp => addVar_eq hidx hN ha x p hp
  let x : Nat → Vec N → Vec N := fun p v => Simd.xor v fun l => wd data (l.val * lp + p)
  refine ⟨⟨x 0 A.ba, x 1 A.be, x 2 A.bi, x 3 A.bo, x 4 A.bu, x 5 A.ga, x 6 A.ge, x 7 A.gi, x 8 A.go, x 9 A.gu, x 10 A.ka, x 11 A.ke, x 12 A.ki, x 13 A.ko, x 14 A.ku, x 15 A.ma, x 16 A.me, x 17 A.mi, x 18 A.mo, x 19 A.mu, x 20 A.sa, A.se, A.si, A.so, A.su⟩, ?_, ?_⟩
  · unfold addVars21
    simp only [Option.bind_eq_bind, h, Nat.reduceLT, Option.bind_some]
    rfl
  · intro p hp
    interval_cases p <;> rfl

variable (f : File)

theorem body_ok (unr : Unrolling) (p : Perm) (h25 : lc ≤ 25) (data mem : Bytes) (hm : mem.length = 200 * f.n)
    (ha : Acc f.n lp lc data) : ∃ mem', body f unr p lc lp data mem = some mem' ∧ mem'.length = 200 * f.n ∧
      ∀ k < f.n, view f.n mem' k = keccak p (Bytes.xorAt (view f.n mem k) 0 (Bytes.slice data (k * (lp * 8)) (lc * 8))) := by
  obtain ⟨m1, e1, u1⟩ := addLanesAll_upd f hm h25 ha
  obtain ⟨m2, e2, l2, w2⟩ := permuteAll_ok f unr p m1 (u1.len.trans hm)
  refine ⟨m2, ?_, l2.trans (u1.len.trans hm), fun k hk => by rw [w2 k hk, u1.view_add hk]⟩
  unfold body
  simp only [Option.bind_eq_bind]
  rw [e1, Option.bind_some, e2]

theorem bodyVars_ok {R : V (Vec f.n) → V (Vec f.n)} {n : Nat} (hR : ∀ (l : Fin f.n) s, lanesOf (fun v => v l) (R s) =
    KeccakP1600.Opt64.run (24 - n) n (lanesOf (fun v => v l) s)) (data : Bytes) (A : V (Vec f.n)) (ha : Acc f.n lp 21 data) :
    ∃ A', bodyVars f R lp data A = some A' ∧ True ∧
      ∀ k < f.n, stateOf A' k = KeccakP1600.Ref.permuteNrounds n (Bytes.xorAt (stateOf A k) 0 (Bytes.slice data (k * (lp * 8)) (21 * 8))) := by
  obtain ⟨A1, e1, h1⟩ := addVars21_ok (index_ok f lp) (n_pos f) ha A
  refine ⟨R A1, ?_, trivial, fun k hk => ?_⟩
  · unfold bodyVars
    rw [e1]; rfl
  · rw [rounds_stateOf hR _ k hk]
    exact congrArg _ (stateOf_xor (A := A) (lc := 21) k hk h1)

/-- What the statements below have in common. -/
def Fast (N : Nat) (F : Bytes → Bytes) (lc lp ls : Nat) (mem data : Bytes) (len : Nat) (r : Option (Bytes × Nat)) : Prop :=
  ∃ mem', r = some (mem', iterations N (lp * 8) (ls * 8) (lc * 8) len * (ls * 8)) ∧ mem'.length = 200 * N ∧
    ∀ k < N, view N mem' k =
      absorbed F (ls * 8) (lc * 8) (iterations N (lp * 8) (ls * 8) (lc * 8) len) (view N mem k) (data.drop (k * (lp * 8)))

section

variable (ls : Nat) (hls : 0 < ls) (hsp : ls ≤ (f.n - 1) * lp + lc) (h32 : ((f.n - 1) * lp + lc) * 8 < 2 ^ 32) (fuel : Nat) (mem data : Bytes)
  (len : Nat) (hf : len < fuel) (h64 : len < 2 ^ 64) (hd : len ≤ data.length) (hm : mem.length = 200 * f.n)

include hls hsp h32 hf h64 hd hm

theorem fastState_ok (unr : Unrolling) (p : Perm) (h25 : lc ≤ 25) :
    Fast f.n (keccak p) lc lp ls mem data len (fastState f unr p fuel mem lc lp ls data len) := by
  have e1 : (lp * (f.n - 1) + lc) * 8 % 2 ^ 32 = ((f.n - 1) * lp + lc) * 8 := by rw [Nat.mul_comm lp, Nat.mod_eq_of_lt h32]
  have e2 : ls * 8 % 2 ^ 32 = ls * 8 := Nat.mod_eq_of_lt (by omega)
  unfold fastState
  rw [e1, e2]
  exact absorbLoop_ok (N := f.n) (lp := lp) (lc := lc) (valid := fun m => m.length = 200 * f.n) (st := view f.n) (F := keccak p) (n_pos f) hls hsp h32
    (fun data m hm ha => body_ok f unr p h25 data m hm ha) fuel data len mem hf h64 hd hm

theorem fastVars_ok {R : V (Vec f.n) → V (Vec f.n)} {n : Nat} (hR : ∀ (l : Fin f.n) s, lanesOf (fun v => v l) (R s) =
    KeccakP1600.Opt64.run (24 - n) n (lanesOf (fun v => v l) s)) (h21 : lc = 21) :
    Fast f.n (KeccakP1600.Ref.permuteNrounds n) lc lp ls mem data len (fastVars f R fuel mem lc lp ls data len) := by
  have e1 : (lp * (f.n - 1) + lc) * 8 % 2 ^ 32 = ((f.n - 1) * lp + lc) * 8 := by rw [Nat.mul_comm lp, Nat.mod_eq_of_lt h32]
  have e2 : ls * 8 % 2 ^ 32 = ls * 8 := Nat.mod_eq_of_lt (by omega)
  subst h21
  obtain ⟨A, ea, ha⟩ := copyFromState_ok hm
  obtain ⟨A1, es, -, hs⟩ := absorbLoop_ok (N := f.n) (lp := lp) (lc := 21) (valid := fun _ => True) (st := stateOf)
    (F := KeccakP1600.Ref.permuteNrounds n) (n_pos f) hls hsp h32
    (fun data s _ hacc => bodyVars_ok f hR data s hacc) fuel data len A hf h64 hd trivial
  obtain ⟨mem', em, hlm, hv⟩ := copyToState_ok hm A1
  refine ⟨mem', ?_, hlm.trans hm, fun k hk => ?_⟩
  · unfold fastVars
    simp only [Option.bind_eq_bind]
    rw [ea, Option.bind_some, e1, e2, Nat.mul_comm 8 ls, es, Option.bind_some]
    simp only
    rw [em, Option.bind_some]
  · rw [hv ⟨k, hk⟩, ← ha ⟨k, hk⟩, ← at_eq ⟨k, hk⟩]
    exact hs k hk

theorem fastLoopAbsorb_ok (unr : Unrolling) (h25 : lc ≤ 25) :
    Fast f.n (keccak .all) lc lp ls mem data len (fastLoopAbsorb f unr fuel mem lc lp ls data len) := by
  unfold fastLoopAbsorb
  by_cases h21 : lc = 21
  · rw [if_pos h21]
    exact fastVars_ok f ls hls hsp h32 fuel mem data len hf h64 hd hm (n := 24) (fun l s => rounds24_ok (ops_ok l) unr s) h21
  · rw [if_neg h21]
    exact fastState_ok f ls hls hsp h32 fuel mem data len hf h64 hd hm unr .all h25

theorem fastLoopAbsorb12_ok (unr : Unrolling) (h25 : lc ≤ 25) :
    Fast f.n (keccak .r12) lc lp ls mem data len (fastLoopAbsorb12 f unr fuel mem lc lp ls data len) := by
  unfold fastLoopAbsorb12
  by_cases h21 : lc = 21
  · rw [if_pos h21]
    exact fastVars_ok f ls hls hsp h32 fuel mem data len hf h64 hd hm (n := 12) (fun l s => rounds12_ok (ops_ok l) unr s) h21
  · rw [if_neg h21]
    exact fastState_ok f ls hls hsp h32 fuel mem data len hf h64 hd hm unr .r12 h25

end

end Avx512
