import Verif.Proofs.SimdState
import Verif.Proofs.Times2Rounds

/-!
The lane functions and the permutations of `KeccakP-1600-times2-SIMD128.c`.
-/

namespace Times2

open KeccakP1600 (Lane)
open Simd
open PlSnPFallback (Perm)

theorem overLanes_inv (f : Nat → Bytes → Option Bytes) (I : Nat → Bytes → Prop) (lc : Nat)
    (hf : ∀ p m, p < lc → I p m → ∃ m', f p m = some m' ∧ I (p + 1) m') (m : Bytes) (h : I 0 m) :
    ∃ m', overLanes f lc m = some m' ∧ I lc m' := by
  unfold overLanes
  by_cases h17 : lc ≥ 17
  · rw [if_pos h17]
    obtain ⟨m1, e1, i1⟩ := seq_inv f I 1 lc 0 17 [0, 1, 2, 3, 4, 5, 6, 7, 8, 9, 10, 11, 12, 13, 14, 15, 16] rfl (by omega)
      (fun p s hp => hf p s (by omega)) m h
    simp only [Option.bind_eq_bind]
    rw [e1, Option.bind_some]
    by_cases h21 : lc ≥ 21
    · rw [if_pos h21]
      obtain ⟨m2, e2, i2⟩ := seq_inv f I 1 lc 17 4 [17, 18, 19, 20] rfl (by omega) (fun p s hp => hf p s (by omega)) m1 i1
      rw [e2, Option.bind_some]
      exact forTo_inv f I lc hf 21 m2 (by omega) i2
    · rw [if_neg h21]
      exact forTo_inv f I lc hf 17 m1 (by omega) i1
  · rw [if_neg h17]
    exact forTo_inv f I lc hf 0 m (by omega) h

variable {lo lc : Nat}

theorem row16 (p : Nat) : 16 * p = 8 * (p * 2) := by omega

theorem xorIn_upd {data mem : Bytes} (ha : Acc 2 lo lc data) (hm : mem.length = 200 * 2) (p : Nat) (hp : p < lc) (h25 : lc ≤ 25) :
    ∃ mem', xorIn data lo p mem = some mem' ∧ SUpd 2 mem mem' p (p + 1) (fun k p x => x ^^^ wd data (k * lo + p)) := by
  unfold xorIn
  simp only [Option.bind_eq_bind, row16]
  rw [loadRow hm p (by omega), Option.bind_some, ha.load (by omega) hp, Option.bind_some, ha.load0 (by omega) hp, Option.bind_some]
  obtain ⟨mem', h1, h2⟩ := storeRow hm p (by omega)
    (Simd.xor (fun l : Fin 2 => wd mem (p * 2 + l.val)) (set2 (wd data (1 * lo + p)) (wd data (0 * lo + p))))
  refine ⟨mem', h1, h2.len, fun k hk p' => ?_⟩
  rw [h2.lane k hk]
  by_cases hc : p ≤ p' ∧ p' < p + 1
  · obtain rfl : p' = p := by omega
    rw [if_pos hc, if_pos hc]
    match k, hk with
    | 0, _ => rfl
    | 1, _ => rfl
  · rw [if_neg hc, if_neg hc]

theorem overWr_upd {data mem : Bytes} (ha : Acc 2 lo lc data) (hm : mem.length = 200 * 2) (p : Nat) (hp : p < lc) (h25 : lc ≤ 25) :
    ∃ mem', overWr data lo p mem = some mem' ∧ SUpd 2 mem mem' p (p + 1) (fun k p _ => wd data (k * lo + p)) := by
  unfold overWr
  simp only [Option.bind_eq_bind, row16]
  rw [ha.load (by omega) hp, Option.bind_some, ha.load0 (by omega) hp, Option.bind_some]
  obtain ⟨mem', h1, h2⟩ := storeRow hm p (by omega) (set2 (wd data (1 * lo + p)) (wd data (0 * lo + p)))
  refine ⟨mem', h1, h2.congr fun k hk p' x h3 h4 => ?_⟩
  obtain rfl : p' = p := by omega
  match k, hk with
  | 0, _ => rfl
  | 1, _ => rfl

theorem addLanesAll_upd {data mem : Bytes} (hm : mem.length = 200 * 2) (h25 : lc ≤ 25) (ha : Acc 2 lo lc data) :
    ∃ mem', addLanesAll mem data lc lo = some mem' ∧ SUpd 2 mem mem' 0 lc (fun k p x => x ^^^ wd data (k * lo + p)) :=
  overLanes_inv _ (fun p m => SUpd 2 mem m 0 p (fun k p x => x ^^^ wd data (k * lo + p))) lc
    (fun p m hp h => by
      obtain ⟨m', h1, h2⟩ := xorIn_upd ha (h.len.trans hm) p hp h25
      exact ⟨m', h1, h.trans h2 (by omega) (by omega)⟩) mem (SUpd.refl _ _ _)

theorem overwriteLanesAll_upd {data mem : Bytes} (hm : mem.length = 200 * 2) (h25 : lc ≤ 25) (ha : Acc 2 lo lc data) :
    ∃ mem', overwriteLanesAll mem data lc lo = some mem' ∧ SUpd 2 mem mem' 0 lc (fun k p _ => wd data (k * lo + p)) :=
  overLanes_inv _ (fun p m => SUpd 2 mem m 0 p (fun k p _ => wd data (k * lo + p))) lc
    (fun p m hp h => by
      obtain ⟨m', h1, h2⟩ := overWr_upd ha (h.len.trans hm) p hp h25
      exact ⟨m', h1, h.trans h2 (by omega) (by omega)⟩) mem (SUpd.refl _ _ _)

/-- Two writes, one for each instance. -/
theorem rows2 {out out1 out2 : Bytes} {a b : Nat} {h : Nat → Nat → Lane} (h1 : OUpd lo out out1 0 1 a b h)
    (h2 : OUpd lo out1 out2 1 2 a b h) : OUpd lo out out2 0 2 a b h := h1.rows h2 (by omega) (by omega)

theorem extr_upd {mem out : Bytes} (hm : mem.length = 200 * 2) (ha : Acc 2 lo lc out) (hlo : lc ≤ lo) (h25 : lc ≤ 25) (p : Nat)
    (hp : p < lc) :
    ∃ out', extr mem lo p out = some out' ∧ OUpd lo out out' 0 2 p (p + 1) (fun k p => wd mem (p * 2 + k)) := by
  unfold extr
  simp only [Option.bind_eq_bind, row16]
  rw [loadRow hm p (by omega), Option.bind_some]
  obtain ⟨o1, e1, u1⟩ := ha.store0 hlo (by omega) hp (w := wd mem (p * 2 + (0 : Fin 2).val))
    (f := fun k p => wd mem (p * 2 + k)) rfl
  rw [e1, Option.bind_some]
  obtain ⟨o2, e2, u2⟩ := (ha.congr u1.len).store hlo (by omega : 1 < 2) hp (w := wd mem (p * 2 + (1 : Fin 2).val))
    (f := fun k p => wd mem (p * 2 + k)) rfl
  exact ⟨o2, e2, rows2 u1 u2⟩

theorem extr2_upd {mem out : Bytes} (hm : mem.length = 200 * 2) (ha : Acc 2 lo lc out) (hlo : lc ≤ lo) (h25 : lc ≤ 25) (p : Nat)
    (hp : p + 2 ≤ lc) :
    ∃ out', extr2 mem lo p out = some out' ∧ OUpd lo out out' 0 2 p (p + 2) (fun k p => wd mem (p * 2 + k)) := by
  unfold extr2
  simp only [Option.bind_eq_bind, row16]
  rw [loadRow hm p (by omega), Option.bind_some, loadRow hm (p + 1) (by omega), Option.bind_some]
  obtain ⟨o1, e1, u1⟩ := ha.storeVec0 hlo (by omega) hp
    (v := unpacklo (fun l : Fin 2 => wd mem (p * 2 + l.val)) (fun l : Fin 2 => wd mem ((p + 1) * 2 + l.val)))
    (f := fun k p => wd mem (p * 2 + k)) (fun l => by fin_cases l <;> rfl)
  rw [e1, Option.bind_some]
  obtain ⟨o2, e2, u2⟩ := (ha.congr u1.len).storeVec hlo (by omega : 1 < 2) hp
    (v := unpackhi (fun l : Fin 2 => wd mem (p * 2 + l.val)) (fun l : Fin 2 => wd mem ((p + 1) * 2 + l.val)))
    (f := fun k p => wd mem (p * 2 + k)) (fun l => by fin_cases l <;> rfl)
  exact ⟨o2, e2, rows2 u1 u2⟩

theorem extractLanesAll_upd {mem out : Bytes} (hm : mem.length = 200 * 2) (h25 : lc ≤ 25) (hlo : lc ≤ lo) (ha : Acc 2 lo lc out) :
    ∃ out', extractLanesAll mem out lc lo = some out' ∧ OUpd lo out out' 0 2 0 lc (fun k p => wd mem (p * 2 + k)) := by
  have hf : ∀ p m, p < lc → OUpd lo out m 0 2 0 p (fun k p => wd mem (p * 2 + k)) →
      ∃ m', extr mem lo p m = some m' ∧ OUpd lo out m' 0 2 0 (p + 1) (fun k p => wd mem (p * 2 + k)) := fun p m hp h => by
    obtain ⟨m', h1, h2⟩ := extr_upd hm (ha.congr h.len) hlo h25 p hp
    exact ⟨m', h1, h.cols h2 (by omega) (by omega)⟩
  have hf2 : ∀ p m, p + 2 ≤ lc → OUpd lo out m 0 2 0 p (fun k p => wd mem (p * 2 + k)) →
      ∃ m', extr2 mem lo p m = some m' ∧ OUpd lo out m' 0 2 0 (p + 2) (fun k p => wd mem (p * 2 + k)) := fun p m hp h => by
    obtain ⟨m', h1, h2⟩ := extr2_upd hm (ha.congr h.len) hlo h25 p hp
    exact ⟨m', h1, h.cols h2 (by omega) (by omega)⟩
  have h0 : OUpd lo out out 0 2 0 0 (fun k p => wd mem (p * 2 + k)) := OUpd.refl _ _ _ _ _
  unfold extractLanesAll
  by_cases h16 : lc ≥ 16
  · rw [if_pos h16]
    obtain ⟨m1, e1, i1⟩ := seq_inv (extr2 mem lo) _ 2 lc 0 8 [0, 2, 4, 6, 8, 10, 12, 14] rfl (by omega) hf2 out h0
    simp only [Option.bind_eq_bind]
    rw [e1, Option.bind_some]
    by_cases h20 : lc ≥ 20
    · rw [if_pos h20]
      obtain ⟨m2, e2, i2⟩ := seq_inv (extr2 mem lo) _ 2 lc 16 2 [16, 18] rfl (by omega) hf2 m1 i1
      rw [e2, Option.bind_some]
      exact forTo_inv (extr mem lo) _ lc hf 20 m2 (by omega) i2
    · rw [if_neg h20]
      exact forTo_inv (extr mem lo) _ lc hf 16 m1 (by omega) i1
  · rw [if_neg h16]
    exact forTo_inv (extr mem lo) _ lc hf 0 out (by omega) h0

theorem extrXor_upd {mem input out : Bytes} (hm : mem.length = 200 * 2) (hi : Acc 2 lo lc input) (ha : Acc 2 lo lc out) (hlo : lc ≤ lo)
    (h25 : lc ≤ 25) (p : Nat) (hp : p < lc) :
    ∃ out', extrXor mem input lo p out = some out' ∧
      OUpd lo out out' 0 2 p (p + 1) (fun k p => wd input (k * lo + p) ^^^ wd mem (p * 2 + k)) := by
  unfold extrXor
  simp only [Option.bind_eq_bind]
  rw [hi.load0 (by omega) hp, Option.bind_some, loadWord_ok mem (2 * p) (by omega), Option.bind_some]
  obtain ⟨o1, e1, u1⟩ := ha.store0 hlo (by omega) hp (w := wd input (0 * lo + p) ^^^ wd mem (2 * p))
    (f := fun k p => wd input (k * lo + p) ^^^ wd mem (p * 2 + k)) (by rw [Nat.mul_comm 2 p]; rfl)
  rw [e1, Option.bind_some, hi.load (by omega) hp, Option.bind_some, loadWord_ok mem (2 * p + 1) (by omega), Option.bind_some]
  obtain ⟨o2, e2, u2⟩ := (ha.congr u1.len).store hlo (by omega : 1 < 2) hp (w := wd input (1 * lo + p) ^^^ wd mem (2 * p + 1))
    (f := fun k p => wd input (k * lo + p) ^^^ wd mem (p * 2 + k)) (by rw [Nat.mul_comm 2 p])
  exact ⟨o2, e2, rows2 u1 u2⟩

theorem extractAndAddLanesAll_upd {mem input out : Bytes} (hm : mem.length = 200 * 2) (h25 : lc ≤ 25) (hlo : lc ≤ lo)
    (hi : Acc 2 lo lc input) (ha : Acc 2 lo lc out) :
    ∃ out', extractAndAddLanesAll mem input out lc lo = some out' ∧
      OUpd lo out out' 0 2 0 lc (fun k p => wd input (k * lo + p) ^^^ wd mem (p * 2 + k)) :=
  overLanes_inv _ (fun p m => OUpd lo out m 0 2 0 p (fun k p => wd input (k * lo + p) ^^^ wd mem (p * 2 + k))) lc
    (fun p m hp h => by
      obtain ⟨m', h1, h2⟩ := extrXor_upd hm hi (ha.congr h.len) hlo h25 p hp
      exact ⟨m', h1, h.cols h2 (by omega) (by omega)⟩) out (OUpd.refl _ _ _ _ _)

theorem permuteAll_ok (xop : Bool) (unr : KeccakP1600.Opt64.Unrolling) (J : Junk) (p : Perm) (mem : Bytes) (hm : mem.length = 200 * 2) :
    ∃ mem', permuteAll xop unr J p mem = some mem' ∧ mem'.length = mem.length ∧
      ∀ k < 2, view 2 mem' k = PlSnPFallback.keccak p (view 2 mem k) := by
  cases p
  · exact permute_ok (n := 24) (fun l s => rounds24_rep (rounds_sound xop l) unr s) J.E J.c hm
  · exact permute_ok (n := 12) (fun l s => rounds12_rep (rounds_sound xop l) unr s) J.E J.c hm
  · exact permute_ok (n := 6) (fun l s => rounds6_rep (rounds_sound xop l) unr s) J.E J.c hm
  · exact permute_ok (n := 4) (fun l s => rounds4_rep (rounds_sound xop l) unr s) J.E J.c hm

theorem impl_ok (xop : Bool) (unr : KeccakP1600.Opt64.Unrolling) (J : Junk) :
    PlSpec.Independent (impl xop unr J) 200 PlSnPFallback.keccak (view 2) :=
  independent_of (N := 2) (by omega) rfl rfl rfl rfl rfl rfl rfl rfl rfl rfl
    (fun _ _ _ _ hm h25 ha => addLanesAll_upd hm h25 ha) (fun _ _ _ _ hm h25 ha => overwriteLanesAll_upd hm h25 ha)
    (fun _ _ _ _ hm h25 hlo ha => extractLanesAll_upd hm h25 hlo ha)
    (fun _ _ _ _ _ hm h25 hlo hi ha => extractAndAddLanesAll_upd hm h25 hlo hi ha) (permuteAll_ok xop unr J)

end Times2
