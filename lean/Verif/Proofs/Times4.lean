import Verif.Proofs.SimdState
import Verif.Proofs.Times4Rounds

/-!
The lane functions and the permutations of `KeccakP-1600-times4-SIMD256.c`.
-/

namespace Times4

open KeccakP1600 (Lane)
open Simd
open PlSnPFallback (Perm)

theorem overLanes_inv (f4 f : Nat → Bytes → Option Bytes) (I : Nat → Bytes → Prop) (lc : Nat)
    (hf4 : ∀ p m, p + 4 ≤ lc → I p m → ∃ m', f4 p m = some m' ∧ I (p + 4) m')
    (hf : ∀ p m, p < lc → I p m → ∃ m', f p m = some m' ∧ I (p + 1) m') (m : Bytes) (h : I 0 m) :
    ∃ m', overLanes f4 f lc m = some m' ∧ I lc m' := by
  unfold overLanes
  by_cases h16 : lc ≥ 16
  · rw [if_pos h16]
    obtain ⟨m1, e1, i1⟩ := seq_inv f4 I 4 lc 0 4 [0, 4, 8, 12] rfl (by omega) hf4 m h
    simp only [Option.bind_eq_bind]
    rw [e1, Option.bind_some]
    by_cases h20 : lc ≥ 20
    · rw [if_pos h20]
      obtain ⟨m2, e2, i2⟩ := hf4 16 m1 (by omega) i1
      rw [e2, Option.bind_some]
      exact forTo_inv f I lc hf 20 m2 (by omega) i2
    · rw [if_neg h20]
      exact forTo_inv f I lc hf 16 m1 (by omega) i1
  · rw [if_neg h16]
    exact forTo_inv f I lc hf 0 m (by omega) h

variable {lo lc : Nat}

theorem row32 (p : Nat) : 32 * p = 8 * (p * 4) := by omega

/-- The vectors of `Four`. -/
def Four.get (l : Four) : Fin 4 → Vec 4 := fun j => match j with
  | 0 => l.l0 | 1 => l.l1 | 2 => l.l2 | 3 => l.l3

/-- `INTLEAVE` transposes. -/
theorem intleave_get (l : Four) (j k : Fin 4) : (intleave l).get j k = l.get k j := by
  fin_cases j <;> fin_cases k <;> rfl

/-- `UNINTLEAVE` transposes. -/
theorem unintleave_get (l : Four) (j k : Fin 4) : (unintleave l).get j k = l.get k j := by
  fin_cases j <;> fin_cases k <;> rfl

theorem load4_eq {data : Bytes} (ha : Acc 4 lo lc data) (p : Nat) (hp : p < lc) :
    load4 data lo p = some fun l => wd data (l.val * lo + p) := by
  unfold load4
  simp only [Option.bind_eq_bind]
  rw [ha.load (by omega) hp, Option.bind_some, ha.load (by omega) hp, Option.bind_some, ha.load (by omega) hp, Option.bind_some,
    ha.load0 (by omega) hp, Option.bind_some]
  refine congrArg some (funext fun l => ?_)
  fin_cases l <;> rfl

theorem loadPtrs_eq {data : Bytes} (ha : Acc 4 lo lc data) (p : Nat) (hp : p + 4 ≤ lc) :
    ∃ l, loadPtrs data lo p = some l ∧ ∀ k j : Fin 4, l.get k j = wd data (k.val * lo + (p + j.val)) := by
  unfold loadPtrs
  simp only [Option.bind_eq_bind]
  rw [ha.loadVec0 (by omega) hp, Option.bind_some, ha.loadVec (by omega) hp, Option.bind_some, ha.loadVec (by omega) hp, Option.bind_some,
    ha.loadVec (by omega) hp, Option.bind_some]
  refine ⟨_, rfl, fun k j => ?_⟩
  fin_cases k <;> rfl

theorem loadState_eq {mem : Bytes} (hm : mem.length = 200 * 4) (p : Nat) (hp : p + 4 ≤ 25) :
    ∃ l, loadState mem p = some l ∧ ∀ j k : Fin 4, l.get j k = wd mem ((p + j.val) * 4 + k.val) := by
  unfold loadState
  simp only [Option.bind_eq_bind, row32]
  rw [loadRow hm p (by omega), Option.bind_some, loadRow hm (p + 1) (by omega), Option.bind_some, loadRow hm (p + 2) (by omega),
    Option.bind_some, loadRow hm (p + 3) (by omega), Option.bind_some]
  refine ⟨_, rfl, fun k j => ?_⟩
  fin_cases k <;> rfl

theorem xorEq_upd {mem : Bytes} (hm : mem.length = 200 * 4) (p : Nat) (hp : p < 25) (v : Vec 4) {d : Nat → Nat → Lane}
    (hd : ∀ k : Fin 4, v k = d k.val p) :
    ∃ mem', xorEq mem p v = some mem' ∧ SUpd 4 mem mem' p (p + 1) (fun k p x => x ^^^ d k p) := by
  unfold xorEq
  simp only [Option.bind_eq_bind, row32]
  rw [loadRow hm p (by omega), Option.bind_some]
  obtain ⟨mem', h1, h2⟩ := storeRow hm p hp (Simd.xor (fun l : Fin 4 => wd mem (p * 4 + l.val)) v)
  refine ⟨mem', h1, h2.len, fun k hk p' => ?_⟩
  rw [h2.lane k hk]
  by_cases hc : p ≤ p' ∧ p' < p + 1
  · obtain rfl : p' = p := by omega
    rw [if_pos hc, if_pos hc, Vec.at, dif_pos hk, ← hd ⟨k, hk⟩]
    rfl
  · rw [if_neg hc, if_neg hc]

theorem set_upd {mem : Bytes} (hm : mem.length = 200 * 4) (p : Nat) (hp : p < 25) (v : Vec 4) {d : Nat → Nat → Lane}
    (hd : ∀ k : Fin 4, v k = d k.val p) :
    ∃ mem', storeVec mem (32 * p) v = some mem' ∧ SUpd 4 mem mem' p (p + 1) (fun k p _ => d k p) := by
  rw [row32]
  obtain ⟨mem', h1, h2⟩ := storeRow hm p hp v
  refine ⟨mem', h1, h2.congr fun k hk p' x h3 h4 => ?_⟩
  obtain rfl : p' = p := by omega
  rw [Vec.at, dif_pos hk, ← hd ⟨k, hk⟩]

theorem xorIn_upd {data mem : Bytes} (ha : Acc 4 lo lc data) (hm : mem.length = 200 * 4) (h25 : lc ≤ 25) (p : Nat) (hp : p < lc) :
    ∃ mem', xorIn data lo p mem = some mem' ∧ SUpd 4 mem mem' p (p + 1) (fun k p x => x ^^^ wd data (k * lo + p)) := by
  unfold xorIn
  simp only [Option.bind_eq_bind]
  rw [load4_eq ha p hp, Option.bind_some]
  exact xorEq_upd hm p (by omega) _ (d := fun k p => wd data (k * lo + p)) fun k => rfl

theorem overWr_upd {data mem : Bytes} (ha : Acc 4 lo lc data) (hm : mem.length = 200 * 4) (h25 : lc ≤ 25) (p : Nat) (hp : p < lc) :
    ∃ mem', overWr data lo p mem = some mem' ∧ SUpd 4 mem mem' p (p + 1) (fun k p _ => wd data (k * lo + p)) := by
  unfold overWr
  simp only [Option.bind_eq_bind]
  rw [load4_eq ha p hp, Option.bind_some]
  exact set_upd hm p (by omega) _ (d := fun k p => wd data (k * lo + p)) fun k => rfl

theorem xorIn4_upd {data mem : Bytes} (ha : Acc 4 lo lc data) (hm : mem.length = 200 * 4) (h25 : lc ≤ 25) (p : Nat) (hp : p + 4 ≤ lc) :
    ∃ mem', xorIn4 data lo p mem = some mem' ∧ SUpd 4 mem mem' p (p + 4) (fun k p x => x ^^^ wd data (k * lo + p)) := by
  obtain ⟨l, e, hl⟩ := loadPtrs_eq ha p hp
  have hd : ∀ j k : Fin 4, (intleave l).get j k = wd data (k.val * lo + (p + j.val)) := fun j k => by rw [intleave_get, hl]
  unfold xorIn4
  simp only [Option.bind_eq_bind]
  rw [e, Option.bind_some]
  obtain ⟨m1, e1, u1⟩ := xorEq_upd hm p (by omega) (intleave l).l0 (d := fun k p => wd data (k * lo + p)) (fun k => hd 0 k)
  rw [e1, Option.bind_some]
  obtain ⟨m2, e2, u2⟩ := xorEq_upd (u1.len.trans hm) (p + 1) (by omega) (intleave l).l1 (d := fun k p => wd data (k * lo + p)) (fun k => hd 1 k)
  rw [e2, Option.bind_some]
  have u2 := u1.trans u2 (by omega) (by omega)
  obtain ⟨m3, e3, u3⟩ := xorEq_upd (u2.len.trans hm) (p + 2) (by omega) (intleave l).l2 (d := fun k p => wd data (k * lo + p)) (fun k => hd 2 k)
  rw [e3, Option.bind_some]
  have u3 := u2.trans u3 (by omega) (by omega)
  obtain ⟨m4, e4, u4⟩ := xorEq_upd (u3.len.trans hm) (p + 3) (by omega) (intleave l).l3 (d := fun k p => wd data (k * lo + p)) (fun k => hd 3 k)
  exact ⟨m4, e4, u3.trans u4 (by omega) (by omega)⟩

theorem overWr4_upd {data mem : Bytes} (ha : Acc 4 lo lc data) (hm : mem.length = 200 * 4) (h25 : lc ≤ 25) (p : Nat) (hp : p + 4 ≤ lc) :
    ∃ mem', overWr4 data lo p mem = some mem' ∧ SUpd 4 mem mem' p (p + 4) (fun k p _ => wd data (k * lo + p)) := by
  obtain ⟨l, e, hl⟩ := loadPtrs_eq ha p hp
  have hd : ∀ j k : Fin 4, (intleave l).get j k = wd data (k.val * lo + (p + j.val)) := fun j k => by rw [intleave_get, hl]
  unfold overWr4
  simp only [Option.bind_eq_bind]
  rw [e, Option.bind_some]
  obtain ⟨m1, e1, u1⟩ := set_upd hm p (by omega) (intleave l).l0 (d := fun k p => wd data (k * lo + p)) (fun k => hd 0 k)
  rw [e1, Option.bind_some]
  obtain ⟨m2, e2, u2⟩ := set_upd (u1.len.trans hm) (p + 1) (by omega) (intleave l).l1 (d := fun k p => wd data (k * lo + p)) (fun k => hd 1 k)
  rw [e2, Option.bind_some]
  have u2 := u1.trans u2 (by omega) (by omega)
  obtain ⟨m3, e3, u3⟩ := set_upd (u2.len.trans hm) (p + 2) (by omega) (intleave l).l2 (d := fun k p => wd data (k * lo + p)) (fun k => hd 2 k)
  rw [e3, Option.bind_some]
  have u3 := u2.trans u3 (by omega) (by omega)
  obtain ⟨m4, e4, u4⟩ := set_upd (u3.len.trans hm) (p + 3) (by omega) (intleave l).l3 (d := fun k p => wd data (k * lo + p)) (fun k => hd 3 k)
  exact ⟨m4, e4, u3.trans u4 (by omega) (by omega)⟩

theorem addLanesAll_upd {data mem : Bytes} (hm : mem.length = 200 * 4) (h25 : lc ≤ 25) (ha : Acc 4 lo lc data) :
    ∃ mem', addLanesAll mem data lc lo = some mem' ∧ SUpd 4 mem mem' 0 lc (fun k p x => x ^^^ wd data (k * lo + p)) :=
  overLanes_inv _ _ (fun p m => SUpd 4 mem m 0 p (fun k p x => x ^^^ wd data (k * lo + p))) lc
    (fun p m hp h => by
      obtain ⟨m', h1, h2⟩ := xorIn4_upd ha (h.len.trans hm) h25 p hp
      exact ⟨m', h1, h.trans h2 (by omega) (by omega)⟩)
    (fun p m hp h => by
      obtain ⟨m', h1, h2⟩ := xorIn_upd ha (h.len.trans hm) h25 p hp
      exact ⟨m', h1, h.trans h2 (by omega) (by omega)⟩) mem (SUpd.refl _ _ _)

theorem overwriteLanesAll_upd {data mem : Bytes} (hm : mem.length = 200 * 4) (h25 : lc ≤ 25) (ha : Acc 4 lo lc data) :
    ∃ mem', overwriteLanesAll mem data lc lo = some mem' ∧ SUpd 4 mem mem' 0 lc (fun k p _ => wd data (k * lo + p)) :=
  overLanes_inv _ _ (fun p m => SUpd 4 mem m 0 p (fun k p _ => wd data (k * lo + p))) lc
    (fun p m hp h => by
      obtain ⟨m', h1, h2⟩ := overWr4_upd ha (h.len.trans hm) h25 p hp
      exact ⟨m', h1, h.trans h2 (by omega) (by omega)⟩)
    (fun p m hp h => by
      obtain ⟨m', h1, h2⟩ := overWr_upd ha (h.len.trans hm) h25 p hp
      exact ⟨m', h1, h.trans h2 (by omega) (by omega)⟩) mem (SUpd.refl _ _ _)

/-- `STORE256u` through the four pointers. -/
theorem storePtrs_upd {out : Bytes} (ha : Acc 4 lo lc out) (hlo : lc ≤ lo) (p : Nat) (hp : p + 4 ≤ lc) (l : Four) {f : Nat → Nat → Lane}
    (hf : ∀ k j : Fin 4, l.get k j = f k.val (p + j.val)) :
    ∃ out', storePtrs out lo p l = some out' ∧ OUpd lo out out' 0 4 p (p + 4) f := by
  unfold storePtrs
  simp only [Option.bind_eq_bind]
  obtain ⟨o1, e1, u1⟩ := ha.storeVec0 hlo (by omega) hp (v := l.l0) (f := f) (fun j => hf 0 j)
  rw [e1, Option.bind_some]
  obtain ⟨o2, e2, u2⟩ := (ha.congr u1.len).storeVec hlo (by omega : 1 < 4) hp (v := l.l1) (f := f) (fun j => hf 1 j)
  rw [e2, Option.bind_some]
  have u2 := u1.rows u2 (by omega) (by omega)
  obtain ⟨o3, e3, u3⟩ := (ha.congr u2.len).storeVec hlo (by omega : 2 < 4) hp (v := l.l2) (f := f) (fun j => hf 2 j)
  rw [e3, Option.bind_some]
  have u3 := u2.rows u3 (by omega) (by omega)
  obtain ⟨o4, e4, u4⟩ := (ha.congr u3.len).storeVec hlo (by omega : 3 < 4) hp (v := l.l3) (f := f) (fun j => hf 3 j)
  exact ⟨o4, e4, u3.rows u4 (by omega) (by omega)⟩

theorem extr4_upd {mem out : Bytes} (hm : mem.length = 200 * 4) (ha : Acc 4 lo lc out) (hlo : lc ≤ lo) (h25 : lc ≤ 25) (p : Nat)
    (hp : p + 4 ≤ lc) :
    ∃ out', extr4 mem lo p out = some out' ∧ OUpd lo out out' 0 4 p (p + 4) (fun k p => wd mem (p * 4 + k)) := by
  obtain ⟨l, e, hl⟩ := loadState_eq hm p (by omega)
  unfold extr4
  simp only [Option.bind_eq_bind]
  rw [e, Option.bind_some]
  exact storePtrs_upd ha hlo p hp _ fun k j => by rw [unintleave_get, hl]

theorem extrXor4_upd {mem input out : Bytes} (hm : mem.length = 200 * 4) (hi : Acc 4 lo lc input) (ha : Acc 4 lo lc out) (hlo : lc ≤ lo)
    (h25 : lc ≤ 25) (p : Nat) (hp : p + 4 ≤ lc) :
    ∃ out', extrXor4 mem input lo p out = some out' ∧
      OUpd lo out out' 0 4 p (p + 4) (fun k p => wd input (k * lo + p) ^^^ wd mem (p * 4 + k)) := by
  obtain ⟨l, e, hl⟩ := loadState_eq hm p (by omega)
  obtain ⟨x, ex, hx⟩ := loadPtrs_eq hi p hp
  unfold extrXor4
  simp only [Option.bind_eq_bind]
  rw [e, Option.bind_some, ex, Option.bind_some]
  refine storePtrs_upd ha hlo p hp _ fun k j => ?_
  have : (Four.mk (xor (unintleave l).l0 x.l0) (xor (unintleave l).l1 x.l1) (xor (unintleave l).l2 x.l2)
      (xor (unintleave l).l3 x.l3)).get k j = (unintleave l).get k j ^^^ x.get k j := by
    fin_cases k <;> rfl
  rw [this, unintleave_get, hl, hx, BitVec.xor_comm]

theorem extr_upd {mem out : Bytes} (hm : mem.length = 200 * 4) (ha : Acc 4 lo lc out) (hlo : lc ≤ lo) (h25 : lc ≤ 25) (p : Nat)
    (hp : p < lc) :
    ∃ out', extr mem lo p out = some out' ∧ OUpd lo out out' 0 4 p (p + 1) (fun k p => wd mem (p * 4 + k)) := by
  unfold extr
  simp only [Option.bind_eq_bind]
  rw [loadWord_ok mem (4 * p) (by omega), loadWord_ok mem (4 * p + 1) (by omega), loadWord_ok mem (4 * p + 2) (by omega),
    loadWord_ok mem (4 * p + 3) (by omega), Nat.mul_comm 4 p]
  simp only [Option.bind_some]
  obtain ⟨o1, e1, u1⟩ := ha.store0 hlo (by omega) hp (w := wd mem (p * 4)) (f := fun k p => wd mem (p * 4 + k)) rfl
  rw [e1, Option.bind_some]
  obtain ⟨o2, e2, u2⟩ := (ha.congr u1.len).store hlo (by omega : 1 < 4) hp (w := wd mem (p * 4 + 1))
    (f := fun k p => wd mem (p * 4 + k)) rfl
  rw [e2, Option.bind_some]
  have u2 := u1.rows u2 (by omega) (by omega)
  obtain ⟨o3, e3, u3⟩ := (ha.congr u2.len).store hlo (by omega : 2 < 4) hp (w := wd mem (p * 4 + 2))
    (f := fun k p => wd mem (p * 4 + k)) rfl
  rw [e3, Option.bind_some]
  have u3 := u2.rows u3 (by omega) (by omega)
  obtain ⟨o4, e4, u4⟩ := (ha.congr u3.len).store hlo (by omega : 3 < 4) hp (w := wd mem (p * 4 + 3))
    (f := fun k p => wd mem (p * 4 + k)) rfl
  exact ⟨o4, e4, u3.rows u4 (by omega) (by omega)⟩

theorem extrXor_upd {mem input out : Bytes} (hm : mem.length = 200 * 4) (hi : Acc 4 lo lc input) (ha : Acc 4 lo lc out) (hlo : lc ≤ lo)
    (h25 : lc ≤ 25) (p : Nat) (hp : p < lc) :
    ∃ out', extrXor mem input lo p out = some out' ∧
      OUpd lo out out' 0 4 p (p + 1) (fun k p => wd input (k * lo + p) ^^^ wd mem (p * 4 + k)) := by
  unfold extrXor
  simp only [Option.bind_eq_bind]
  rw [loadWord_ok mem (4 * p) (by omega), loadWord_ok mem (4 * p + 1) (by omega), loadWord_ok mem (4 * p + 2) (by omega),
    loadWord_ok mem (4 * p + 3) (by omega), Nat.mul_comm 4 p, hi.load0 (by omega) hp, hi.load (by omega : 1 < 4) hp,
    hi.load (by omega : 2 < 4) hp, hi.load (by omega : 3 < 4) hp]
  simp only [Option.bind_some]
  obtain ⟨o1, e1, u1⟩ := ha.store0 hlo (by omega) hp (w := wd input (0 * lo + p) ^^^ wd mem (p * 4))
    (f := fun k p => wd input (k * lo + p) ^^^ wd mem (p * 4 + k)) rfl
  rw [e1, Option.bind_some]
  obtain ⟨o2, e2, u2⟩ := (ha.congr u1.len).store hlo (by omega : 1 < 4) hp (w := wd input (1 * lo + p) ^^^ wd mem (p * 4 + 1))
    (f := fun k p => wd input (k * lo + p) ^^^ wd mem (p * 4 + k)) rfl
  rw [e2, Option.bind_some]
  have u2 := u1.rows u2 (by omega) (by omega)
  obtain ⟨o3, e3, u3⟩ := (ha.congr u2.len).store hlo (by omega : 2 < 4) hp (w := wd input (2 * lo + p) ^^^ wd mem (p * 4 + 2))
    (f := fun k p => wd input (k * lo + p) ^^^ wd mem (p * 4 + k)) rfl
  rw [e3, Option.bind_some]
  have u3 := u2.rows u3 (by omega) (by omega)
  obtain ⟨o4, e4, u4⟩ := (ha.congr u3.len).store hlo (by omega : 3 < 4) hp (w := wd input (3 * lo + p) ^^^ wd mem (p * 4 + 3))
    (f := fun k p => wd input (k * lo + p) ^^^ wd mem (p * 4 + k)) rfl
  exact ⟨o4, e4, u3.rows u4 (by omega) (by omega)⟩

theorem extractLanesAll_upd {mem out : Bytes} (hm : mem.length = 200 * 4) (h25 : lc ≤ 25) (hlo : lc ≤ lo) (ha : Acc 4 lo lc out) :
    ∃ out', extractLanesAll mem out lc lo = some out' ∧ OUpd lo out out' 0 4 0 lc (fun k p => wd mem (p * 4 + k)) :=
  overLanes_inv _ _ (fun p m => OUpd lo out m 0 4 0 p (fun k p => wd mem (p * 4 + k))) lc
    (fun p m hp h => by
      obtain ⟨m', h1, h2⟩ := extr4_upd hm (ha.congr h.len) hlo h25 p hp
      exact ⟨m', h1, h.cols h2 (by omega) (by omega)⟩)
    (fun p m hp h => by
      obtain ⟨m', h1, h2⟩ := extr_upd hm (ha.congr h.len) hlo h25 p hp
      exact ⟨m', h1, h.cols h2 (by omega) (by omega)⟩) out (OUpd.refl _ _ _ _ _)

theorem extractAndAddLanesAll_upd {mem input out : Bytes} (hm : mem.length = 200 * 4) (h25 : lc ≤ 25) (hlo : lc ≤ lo)
    (hi : Acc 4 lo lc input) (ha : Acc 4 lo lc out) :
    ∃ out', extractAndAddLanesAll mem input out lc lo = some out' ∧
      OUpd lo out out' 0 4 0 lc (fun k p => wd input (k * lo + p) ^^^ wd mem (p * 4 + k)) :=
  overLanes_inv _ _ (fun p m => OUpd lo out m 0 4 0 p (fun k p => wd input (k * lo + p) ^^^ wd mem (p * 4 + k))) lc
    (fun p m hp h => by
      obtain ⟨m', h1, h2⟩ := extrXor4_upd hm hi (ha.congr h.len) hlo h25 p hp
      exact ⟨m', h1, h.cols h2 (by omega) (by omega)⟩)
    (fun p m hp h => by
      obtain ⟨m', h1, h2⟩ := extrXor_upd hm hi (ha.congr h.len) hlo h25 p hp
      exact ⟨m', h1, h.cols h2 (by omega) (by omega)⟩) out (OUpd.refl _ _ _ _ _)

theorem permuteAll_ok (unr : KeccakP1600.Opt64.Unrolling) (J : Junk) (p : Perm) (mem : Bytes) (hm : mem.length = 200 * 4) :
    ∃ mem', permuteAll unr J p mem = some mem' ∧ mem'.length = mem.length ∧
      ∀ k < 4, view 4 mem' k = PlSnPFallback.keccak p (view 4 mem k) := by
  cases p
  · exact permute_ok (n := 24) (fun l s => rounds24_rep (rounds_sound l) unr s) J.E J.c hm
  · exact permute_ok (n := 12) (fun l s => rounds12_rep (rounds_sound l) unr s) J.E J.c hm
  · exact permute_ok (n := 6) (fun l s => rounds6_rep (rounds_sound l) unr s) J.E J.c hm
  · exact permute_ok (n := 4) (fun l s => rounds4_rep (rounds_sound l) unr s) J.E J.c hm

theorem impl_ok (unr : KeccakP1600.Opt64.Unrolling) (J : Junk) :
    PlSpec.Independent (impl unr J) 200 PlSnPFallback.keccak (view 4) :=
  independent_of (N := 4) (by omega) rfl rfl rfl rfl rfl rfl rfl rfl rfl rfl
    (fun _ _ _ _ hm h25 ha => addLanesAll_upd hm h25 ha) (fun _ _ _ _ hm h25 ha => overwriteLanesAll_upd hm h25 ha)
    (fun _ _ _ _ hm h25 hlo ha => extractLanesAll_upd hm h25 hlo ha)
    (fun _ _ _ _ _ hm h25 hlo hi ha => extractAndAddLanesAll_upd hm h25 hlo hi ha) (permuteAll_ok unr J)

end Times4
