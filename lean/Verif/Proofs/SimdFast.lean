import Verif.Proofs.Times2
import Verif.Proofs.Times4

/-!
The `FastLoop_Absorb` functions of the SIMD implementations.
-/

namespace Simd

open KeccakP1600 (Lane bytesOfLanes)
open PlSpec (InBuf)
open PlSnPFallback (absorbed iterations keccak)

variable {N lp lc ls : Nat}

/-- The loop, for a body that absorbs one block in every state; `st s k` is state `k` kept in the variables `s`. -/
theorem absorbLoop_ok {σ : Type} {valid : σ → Prop} {st : σ → Nat → Bytes} {F : Bytes → Bytes} {body : Bytes → σ → Option σ}
    (hN : 0 < N) (hls : 0 < ls) (hsp : ls ≤ (N - 1) * lp + lc) (h32 : ((N - 1) * lp + lc) * 8 < 2 ^ 32)
    (hbody : ∀ data s, valid s → Acc N lp lc data → ∃ s', body data s = some s' ∧ valid s' ∧
      ∀ k < N, st s' k = F (Bytes.xorAt (st s k) 0 (Bytes.slice data (k * (lp * 8)) (lc * 8))))
    (fuel : Nat) : ∀ (data : Bytes) (len : Nat) (s : σ), len < fuel → len < 2 ^ 64 → len ≤ data.length → valid s →
    ∃ s', absorbLoop (((N - 1) * lp + lc) * 8) (ls * 8) (ls * 8) body fuel data len s =
        some (s', iterations N (lp * 8) (ls * 8) (lc * 8) len * (ls * 8)) ∧ valid s' ∧
      ∀ k < N, st s' k = absorbed F (ls * 8) (lc * 8) (iterations N (lp * 8) (ls * 8) (lc * 8) len) (st s k) (data.drop (k * (lp * 8))) := by
  have e8 : (N - 1) * (lp * 8) = (N - 1) * lp * 8 := by rw [Nat.mul_assoc]
  induction fuel with
  | zero => intro data len s h; omega
  | succ fuel ih =>
    intro data len s hf h64 hd hv
    rw [absorbLoop]
    by_cases hn : len ≥ ((N - 1) * lp + lc) * 8
    · have hk1 : ∀ k < N, k * lp ≤ (N - 1) * lp := fun k hk => Nat.mul_le_mul_right _ (by omega)
      have hacc : Acc N lp lc data := by
        refine ⟨fun k hk => ?_, fun k hk => ?_⟩
        · rw [Nat.mul_comm lp k]; have := hk1 k hk; omega
        · have := hk1 k hk
          rw [← Nat.mul_assoc]; omega
      obtain ⟨s1, e1, v1, w1⟩ := hbody data s hv hacc
      have hlen : (len + 2 ^ 64 - ls * 8) % 2 ^ 64 = len - ls * 8 := by
        rw [show len + 2 ^ 64 - ls * 8 = len - ls * 8 + 2 ^ 64 by omega, Nat.add_mod_right,
          Nat.mod_eq_of_lt (by omega)]
      have hit : iterations N (lp * 8) (ls * 8) (lc * 8) len =
          iterations N (lp * 8) (ls * 8) (lc * 8) (len - ls * 8) + 1 := by
        unfold iterations
        rw [if_neg (by omega)]
        split
        · rename_i h2; rw [Nat.div_eq_of_lt (by omega)]
        · rename_i h2
          rw [show len - ls * 8 - ((N - 1) * (lp * 8) + lc * 8) = len - ((N - 1) * (lp * 8) + lc * 8) - ls * 8 by omega,
            ← Nat.div_eq_sub_div (by omega) (by omega)]
      obtain ⟨s2, e2, v2, w2⟩ := ih (data.drop (ls * 8)) (len - ls * 8) s1 (by omega) (by omega) (by rw [List.length_drop]; omega) v1
      refine ⟨s2, ?_, v2, fun k hk => ?_⟩
      · rw [if_pos hn]
        simp only [Option.bind_eq_bind]
        rw [e1, Option.bind_some, hlen, e2, Option.bind_some, hit, Nat.add_mul, Nat.one_mul]
      · rw [w2 k hk, w1 k hk, hit, absorbed, List.drop_drop, List.drop_drop, Nat.add_comm (ls * 8)]
        rfl
    · have : iterations N (lp * 8) (ls * 8) (lc * 8) len = 0 := by unfold iterations; rw [if_pos (by omega)]
      refine ⟨s, by rw [if_neg hn, this, Nat.zero_mul], hv, fun k _ => by rw [this, absorbed]⟩

/-- When the pointer moves further than the data of one iteration and the next data cannot be read, nothing is returned. -/
theorem absorbLoop_none {σ : Type} {body : Bytes → σ → Option σ} {thr adv dec : Nat} {data : Bytes} {len : Nat} (h1 : thr ≤ len)
    (h2 : len < dec) (h3 : dec ≤ 2 ^ 32) (h4 : thr < 2 ^ 32) (hb : ∀ s, body (data.drop adv) s = none) (fuel : Nat) (s : σ) :
    absorbLoop thr adv dec body fuel data len s = none := by
  cases fuel with
  | zero => rfl
  | succ fuel =>
    rw [absorbLoop, if_pos h1]
    simp only [Option.bind_eq_bind]
    cases body data s with
    | none => rfl
    | some s1 =>
      rw [Option.bind_some]
      cases fuel with
      | zero => rfl
      | succ fuel =>
        rw [absorbLoop, if_pos (by omega), hb]; rfl

end Simd

namespace Times2

open Simd
open PlSnPFallback (absorbed iterations keccak)
open KeccakP1600.Opt64 (Unrolling)

variable {lp lc : Nat}

theorem body_ok (xop : Bool) (unr : Unrolling) (J : Junk) (h25 : lc ≤ 25) (data mem : Bytes) (hm : mem.length = 200 * 2)
    (ha : Acc 2 lp lc data) : ∃ mem', body xop unr J lc lp data mem = some mem' ∧ mem'.length = 200 * 2 ∧
      ∀ k < 2, view 2 mem' k = keccak .all (Bytes.xorAt (view 2 mem k) 0 (Bytes.slice data (k * (lp * 8)) (lc * 8))) := by
  obtain ⟨m1, e1, u1⟩ := addLanesAll_upd hm h25 ha
  obtain ⟨m2, e2, l2, w2⟩ := permuteAll_ok xop unr J .all m1 (u1.len.trans hm)
  refine ⟨m2, ?_, l2.trans (u1.len.trans hm), fun k hk => by rw [w2 k hk, u1.view_add hk]⟩
  unfold body
  simp only [Option.bind_eq_bind]
  rw [e1, Option.bind_some, e2]

theorem body21_ok (xop : Bool) (unr : Unrolling) (J : Junk) (data mem : Bytes) (hm : mem.length = 200 * 2) (ha : Acc 2 lp 21 data) :
    ∃ mem', body21 xop unr J lp data mem = some mem' ∧ mem'.length = 200 * 2 ∧
      ∀ k < 2, view 2 mem' k = keccak .all (Bytes.xorAt (view 2 mem k) 0 (Bytes.slice data (k * (lp * 8)) (21 * 8))) := by
  obtain ⟨m1, e1, u1⟩ := seq_inv (xorIn data lp) (fun p m => SUpd 2 mem m 0 p (fun k p x => x ^^^ wd data (k * lp + p))) 1 21 0 21
    [0, 1, 2, 3, 4, 5, 6, 7, 8, 9, 10, 11, 12, 13, 14, 15, 16, 17, 18, 19, 20] rfl (by omega)
    (fun p m hp h => by
      obtain ⟨m', h1, h2⟩ := xorIn_upd ha (h.len.trans hm) p (by omega) (by omega)
      exact ⟨m', h1, h.trans h2 (by omega) (by omega)⟩) mem (SUpd.refl _ _ _)
  obtain ⟨m2, e2, l2, w2⟩ := permuteAll_ok xop unr J .all m1 (u1.len.trans hm)
  refine ⟨m2, ?_, l2.trans (u1.len.trans hm), fun k hk => by rw [w2 k hk, u1.view_add hk]⟩
  unfold body21
  simp only [Option.bind_eq_bind]
  rw [e1, Option.bind_some, e2]

theorem fastLoopAbsorb_ok (xop : Bool) (unr : Unrolling) (J : Junk) (ls : Nat) (hls : 0 < ls) (h25 : lc ≤ 25) (hsp : ls ≤ lp + lc)
    (h32 : (lp + lc) * 8 < 2 ^ 32) (fuel : Nat) (mem data : Bytes) (len : Nat) (hf : len < fuel) (h64 : len < 2 ^ 64)
    (hd : len ≤ data.length) (hm : mem.length = 200 * 2) :
    ∃ mem', fastLoopAbsorb xop unr J fuel mem lc lp ls data len =
        some (mem', iterations 2 (lp * 8) (ls * 8) (lc * 8) len * (ls * 8)) ∧ mem'.length = 200 * 2 ∧
      ∀ k < 2, view 2 mem' k =
        absorbed (keccak .all) (ls * 8) (lc * 8) (iterations 2 (lp * 8) (ls * 8) (lc * 8) len) (view 2 mem k) (data.drop (k * (lp * 8))) := by
  have e1 : (lp + lc) * 8 % 2 ^ 32 = ((2 - 1) * lp + lc) * 8 := by rw [Nat.mod_eq_of_lt h32, Nat.one_mul]
  have e2 : ls * 8 % 2 ^ 32 = ls * 8 := Nat.mod_eq_of_lt (by omega)
  unfold fastLoopAbsorb
  rw [e1, e2]
  by_cases h21 : lc = 21
  · subst h21
    rw [if_pos rfl]
    exact absorbLoop_ok (N := 2) (lp := lp) (valid := fun m => m.length = 200 * 2) (st := view 2) (F := keccak .all) (by omega) hls (by omega) (by omega)
      (fun data m hm ha => body21_ok xop unr J data m hm ha) fuel data len mem hf h64 hd hm
  · rw [if_neg h21]
    exact absorbLoop_ok (N := 2) (lp := lp) (valid := fun m => m.length = 200 * 2) (st := view 2) (F := keccak .all) (by omega) hls (by omega) (by omega)
      (fun data m hm ha => body_ok xop unr J h25 data m hm ha) fuel data len mem hf h64 hd hm

end Times2

namespace Times4

open Simd
open PlSnPFallback (absorbed iterations keccak Perm)
open KeccakP1600 (bytesOfLanes)
open KeccakP1600.Opt64 (Unrolling)

variable {lp lc : Nat}

theorem body_ok (unr : Unrolling) (J : Junk) (p : Perm) (h25 : lc ≤ 25) (data mem : Bytes) (hm : mem.length = 200 * 4)
    (ha : Acc 4 lp lc data) : ∃ mem', body unr J p lc lp data mem = some mem' ∧ mem'.length = 200 * 4 ∧
      ∀ k < 4, view 4 mem' k = keccak p (Bytes.xorAt (view 4 mem k) 0 (Bytes.slice data (k * (lp * 8)) (lc * 8))) := by
  obtain ⟨m1, e1, u1⟩ := addLanesAll_upd hm h25 ha
  obtain ⟨m2, e2, l2, w2⟩ := permuteAll_ok unr J p m1 (u1.len.trans hm)
  refine ⟨m2, ?_, l2.trans (u1.len.trans hm), fun k hk => by rw [w2 k hk, u1.view_add hk]⟩
  unfold body
  simp only [Option.bind_eq_bind]
  rw [e1, Option.bind_some, e2]

/-- State `k` kept in the variables. -/
def stateOf (s : St (Vec 4)) (k : Nat) : Bytes := bytesOfLanes (lanesOf (fun v => v.at k) s.A)

theorem at_eq (k : Fin 4) : (fun v : Vec 4 => v.at k.val) = fun v => v k := by
  funext v; rw [Vec.at, dif_pos k.isLt]

theorem xorVars17_ok {data : Bytes} (ha : Acc 4 lp lc data) (h17 : 17 ≤ lc) (A : V (Vec 4)) :
    ∃ A', xorVars17 data lp A = some A' ∧ ∀ p < 25, A'.get p = if p < 17 then xor (A.get p) (fun l => wd data (l.val * lp + p)) else A.get p := by
  unfold xorVars17 xorVar
  simp only [Option.bind_eq_bind, load4_eq ha _ (show 0 < lc by omega), load4_eq ha _ (show 1 < lc by omega), load4_eq ha _ (show 2 < lc by omega),
    load4_eq ha _ (show 3 < lc by omega), load4_eq ha _ (show 4 < lc by omega), load4_eq ha _ (show 5 < lc by omega),
    load4_eq ha _ (show 6 < lc by omega), load4_eq ha _ (show 7 < lc by omega), load4_eq ha _ (show 8 < lc by omega),
    load4_eq ha _ (show 9 < lc by omega), load4_eq ha _ (show 10 < lc by omega), load4_eq ha _ (show 11 < lc by omega),
    load4_eq ha _ (show 12 < lc by omega), load4_eq ha _ (show 13 < lc by omega), load4_eq ha _ (show 14 < lc by omega),
    load4_eq ha _ (show 15 < lc by omega), load4_eq ha _ (show 16 < lc by omega), Option.bind_some]
  refine ⟨_, rfl, fun p hp => ?_⟩
  interval_cases p <;> rfl

theorem xorVars21_ok {data : Bytes} (ha : Acc 4 lp lc data) (h21 : 21 ≤ lc) (A : V (Vec 4)) :
    ∃ A', xorVars21 data lp A = some A' ∧
      ∀ p < 25, A'.get p = if 17 ≤ p ∧ p < 21 then xor (A.get p) (fun l => wd data (l.val * lp + p)) else A.get p := by
  unfold xorVars21 xorVar
  simp only [Option.bind_eq_bind, load4_eq ha _ (show 17 < lc by omega), load4_eq ha _ (show 18 < lc by omega),
    load4_eq ha _ (show 19 < lc by omega), load4_eq ha _ (show 20 < lc by omega), Option.bind_some]
  refine ⟨_, rfl, fun p hp => ?_⟩
  interval_cases p <;> rfl

/-- Variables into which the first lanes of data were added. -/
theorem stateOf_xor {data : Bytes} {s s' : St (Vec 4)} (k : Nat) (hk : k < 4)
    (h : ∀ p < 25, s'.A.get p = if p < lc then xor (s.A.get p) (fun l => wd data (l.val * lp + p)) else s.A.get p) :
    stateOf s' k = Bytes.xorAt (stateOf s k) 0 (Bytes.slice data (k * (lp * 8)) (lc * 8)) := by
  unfold stateOf
  apply bytes_ext (by simp [KeccakP1600.length_bytesOfLanes])
  intro j hj
  rw [KeccakP1600.length_bytesOfLanes] at hj
  rw [getD_xorAt _ _ _ (by rw [KeccakP1600.length_bytesOfLanes]; exact hj), getD_bytesOfLanes _ _ hj, getD_bytesOfLanes _ _ hj, lanesOf_get,
    lanesOf_get, getD_slice]
  simp only
  rw [h (j / 8) (by omega)]
  by_cases hc : j < lc * 8
  · rw [if_pos (by omega), if_pos hc]
    have e : (xor (s.A.get (j / 8)) fun l : Fin 4 => wd data (l.val * lp + j / 8)).at k = (s.A.get (j / 8)).at k ^^^ wd data (k * lp + j / 8) := by
      simp only [Vec.at, dif_pos hk]; rfl
    rw [e, KeccakP1600.byteOf_xor, byteOf_wd data _ _ (by omega)]
    congr 2
    rw [← Nat.mul_assoc]; omega
  · rw [if_neg (by omega), if_neg hc]
    exact BitVec.xor_zero.symm

theorem rounds_stateOf {R : St (Vec 4) → St (Vec 4)} {n : Nat} (hR : ∀ (l : Fin 4) s, lanesOf (fun v => v l) (R s).A =
    KeccakP1600.Opt64.run (24 - n) n (lanesOf (fun v => v l) s.A)) (s : St (Vec 4)) (k : Nat) (hk : k < 4) :
    stateOf (R s) k = KeccakP1600.Ref.permuteNrounds n (stateOf s k) := by
  unfold stateOf
  rw [at_eq ⟨k, hk⟩, hR]
  show _ = bytesOfLanes (KeccakP1600.Ref.onWords _ _ (KeccakP1600.lanesOfBytes (bytesOfLanes _)) n)
  rw [KeccakP1600.lanesOfBytes_bytesOfLanes]; rfl

theorem bodyVars17_ok {R : St (Vec 4) → St (Vec 4)} {n : Nat} (hR : ∀ (l : Fin 4) s, lanesOf (fun v => v l) (R s).A =
    KeccakP1600.Opt64.run (24 - n) n (lanesOf (fun v => v l) s.A)) (data : Bytes) (s : St (Vec 4)) (ha : Acc 4 lp 17 data) :
    ∃ s', bodyVars17 R lp data s = some s' ∧ True ∧
      ∀ k < 4, stateOf s' k = KeccakP1600.Ref.permuteNrounds n (Bytes.xorAt (stateOf s k) 0 (Bytes.slice data (k * (lp * 8)) (17 * 8))) := by
  obtain ⟨A1, e1, h1⟩ := xorVars17_ok ha (by omega) s.A
  refine ⟨R { s with A := A1 }, ?_, trivial, fun k hk => ?_⟩
  · unfold bodyVars17
    simp only [Option.bind_eq_bind]
    rw [e1, Option.bind_some]
  · rw [rounds_stateOf hR _ k hk]
    exact congrArg _ (stateOf_xor (s := s) (lc := 17) k hk h1)

theorem bodyVars21_ok {R : St (Vec 4) → St (Vec 4)} {n : Nat} (hR : ∀ (l : Fin 4) s, lanesOf (fun v => v l) (R s).A =
    KeccakP1600.Opt64.run (24 - n) n (lanesOf (fun v => v l) s.A)) (data : Bytes) (s : St (Vec 4)) (ha : Acc 4 lp 21 data) :
    ∃ s', bodyVars21 R lp data s = some s' ∧ True ∧
      ∀ k < 4, stateOf s' k = KeccakP1600.Ref.permuteNrounds n (Bytes.xorAt (stateOf s k) 0 (Bytes.slice data (k * (lp * 8)) (21 * 8))) := by
  obtain ⟨A1, e1, h1⟩ := xorVars17_ok ha (by omega) s.A
  obtain ⟨A2, e2, h2⟩ := xorVars21_ok ha (by omega) A1
  refine ⟨R { s with A := A2 }, ?_, trivial, fun k hk => ?_⟩
  · unfold bodyVars21
    simp only [Option.bind_eq_bind]
    rw [e1, Option.bind_some, e2, Option.bind_some]
  · rw [rounds_stateOf hR _ k hk]
    refine congrArg _ (stateOf_xor (s := s) (lc := 21) k hk fun p hp => ?_)
    show A2.get p = _
    rw [h2 p hp, h1 p hp]
    by_cases h3 : p < 17
    · rw [if_neg (by omega), if_pos h3, if_pos (by omega)]
    · by_cases h4 : p < 21
      · rw [if_pos (by omega), if_neg h3, if_pos h4]
      · rw [if_neg (by omega), if_neg h3, if_neg h4]

/-- What the three statements below have in common. -/
def Fast (F : Bytes → Bytes) (lc lp ls : Nat) (mem data : Bytes) (len : Nat) (r : Option (Bytes × Nat)) : Prop :=
  ∃ mem', r = some (mem', iterations 4 (lp * 8) (ls * 8) (lc * 8) len * (ls * 8)) ∧ mem'.length = 200 * 4 ∧
    ∀ k < 4, view 4 mem' k =
      absorbed F (ls * 8) (lc * 8) (iterations 4 (lp * 8) (ls * 8) (lc * 8) len) (view 4 mem k) (data.drop (k * (lp * 8)))

section

variable (ls : Nat) (hls : 0 < ls) (hsp : ls ≤ 3 * lp + lc) (h32 : (3 * lp + lc) * 8 < 2 ^ 32) (fuel : Nat) (mem data : Bytes) (len : Nat)
  (hf : len < fuel) (h64 : len < 2 ^ 64) (hd : len ≤ data.length) (hm : mem.length = 200 * 4)

include hls hsp h32 hf h64 hd hm

theorem fastState_ok (unr : Unrolling) (J : Junk) (p : Perm) (h25 : lc ≤ 25) :
    Fast (keccak p) lc lp ls mem data len (fastState unr J p fuel mem lc lp ls data len) := by
  have e1 : (lp * 3 + lc) * 8 % 2 ^ 32 = ((4 - 1) * lp + lc) * 8 := by rw [Nat.mul_comm lp 3, Nat.mod_eq_of_lt h32]
  have e2 : ls * 8 % 2 ^ 32 = ls * 8 := Nat.mod_eq_of_lt (by omega)
  unfold fastState
  rw [e1, e2]
  exact absorbLoop_ok (N := 4) (lp := lp) (lc := lc) (valid := fun m => m.length = 200 * 4) (st := view 4) (F := keccak p) (by omega) hls (by omega) (by omega)
    (fun data m hm ha => body_ok unr J p h25 data m hm ha) fuel data len mem hf h64 hd hm

theorem fastVars_ok (F : Bytes → Bytes) (J : Junk) (bodyVars : Nat → Bytes → St (Vec 4) → Option (St (Vec 4)))
    (hb : ∀ data s, Acc 4 lp lc data → ∃ s', bodyVars lp data s = some s' ∧ True ∧
      ∀ k < 4, stateOf s' k = F (Bytes.xorAt (stateOf s k) 0 (Bytes.slice data (k * (lp * 8)) (lc * 8)))) :
    Fast F lc lp ls mem data len (fastVars bodyVars J fuel mem lc lp ls data len) := by
  have e1 : (lp * 3 + lc) * 8 % 2 ^ 32 = ((4 - 1) * lp + lc) * 8 := by rw [Nat.mul_comm lp 3, Nat.mod_eq_of_lt h32]
  have e2 : ls * 8 % 2 ^ 32 = ls * 8 := Nat.mod_eq_of_lt (by omega)
  obtain ⟨A, ea, ha⟩ := copyFromState_ok hm
  obtain ⟨s1, es, -, hs⟩ := absorbLoop_ok (N := 4) (lp := lp) (lc := lc) (valid := fun _ => True) (st := stateOf) (F := F) (by omega) hls (by omega) (by omega)
    (fun data s _ hacc => hb data s hacc) fuel data len ⟨A, J.E, J.c⟩ hf h64 hd trivial
  obtain ⟨mem', em, hlm, hv⟩ := copyToState_ok hm s1.A
  refine ⟨mem', ?_, hlm.trans hm, fun k hk => ?_⟩
  · unfold fastVars
    simp only [Option.bind_eq_bind]
    rw [ea, Option.bind_some, e1, e2, Nat.mul_comm 8 ls, es, Option.bind_some]
    simp only
    rw [em, Option.bind_some]
  · rw [hv ⟨k, hk⟩, ← ha ⟨k, hk⟩, ← at_eq ⟨k, hk⟩]
    exact hs k hk

theorem fastLoopAbsorb_ok (unr : Unrolling) (J : Junk) (h25 : lc ≤ 25) :
    Fast (keccak .all) lc lp ls mem data len (fastLoopAbsorb unr J fuel mem lc lp ls data len) := by
  unfold fastLoopAbsorb
  by_cases h21 : lc = 21
  · subst h21
    rw [if_pos rfl]
    exact fastVars_ok ls hls hsp h32 fuel mem data len hf h64 hd hm _ J _
      fun data s ha => bodyVars21_ok (n := 24) (fun l s => rounds24_rep (rounds_sound l) unr s) data s ha
  · rw [if_neg h21]
    exact fastState_ok ls hls hsp h32 fuel mem data len hf h64 hd hm unr J .all h25

theorem fastLoopAbsorb12_ok (unr : Unrolling) (J : Junk) (h25 : lc ≤ 25) :
    Fast (keccak .r12) lc lp ls mem data len (fastLoopAbsorb12 unr J fuel mem lc lp ls data len) := by
  unfold fastLoopAbsorb12
  by_cases h21 : lc = 21
  · subst h21
    rw [if_pos rfl]
    exact fastVars_ok ls hls hsp h32 fuel mem data len hf h64 hd hm _ J _
      fun data s ha => bodyVars21_ok (n := 12) (fun l s => rounds12_rep (rounds_sound l) unr s) data s ha
  · rw [if_neg h21]
    by_cases h17 : lc = 17
    · subst h17
      rw [if_pos rfl]
      exact fastVars_ok ls hls hsp h32 fuel mem data len hf h64 hd hm _ J _
        fun data s ha => bodyVars17_ok (n := 12) (fun l s => rounds12_rep (rounds_sound l) unr s) data s ha
    · rw [if_neg h17]
      exact fastState_ok ls hls hsp h32 fuel mem data len hf h64 hd hm unr J .r12 h25

end

end Times4
