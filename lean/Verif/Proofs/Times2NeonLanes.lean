import Verif.Proofs.Times2NeonBytes

/-!
The functions on lanes of the two-state ARMv7-A NEON implementation in assembly, and the implementation as a whole.
-/

namespace Times2Neon

open KeccakP1600 (Lane)
open Simd (pos wd Stored SUpd OUpd Acc view)

/-- The two halves of a lane. -/
structure Pair (x y : BitVec 32) (w : Lane) : Prop where
  lo : ∀ k < 4, Xoodoo.byteOf x k = KeccakP1600.byteOf w k
  hi : ∀ k < 4, Xoodoo.byteOf y k = KeccakP1600.byteOf w (4 + k)

theorem Pair.xor {x y x' y' : BitVec 32} {w w' : Lane} (h : Pair x y w) (h' : Pair x' y' w') : Pair (x ^^^ x') (y ^^^ y') (w ^^^ w') :=
  ⟨fun k hk => by rw [Xoodoo.byteOf_xor, KeccakP1600.byteOf_xor, h.lo k hk, h'.lo k hk],
    fun k hk => by rw [Xoodoo.byteOf_xor, KeccakP1600.byteOf_xor, h.hi k hk, h'.hi k hk]⟩

theorem ldPair (m : Bytes) (c : Nat) (h : 8 * c + 8 ≤ m.length) :
    ∃ x y, ldr m (8 * c) = some x ∧ ldr m (8 * c + 4) = some y ∧ Pair x y (wd m c) := by
  obtain ⟨x, y, h1, h2, h3, h4⟩ := ldr2 m (8 * c) h
  refine ⟨x, y, h1, h2, fun k hk => ?_, fun k hk => ?_⟩
  · rw [h3 k hk, Simd.byteOf_wd _ _ _ (by omega)]
  · rw [h4 k hk, Simd.byteOf_wd _ _ _ (by omega), Nat.add_assoc]

theorem stPair (m : Bytes) (c : Nat) {x y : BitVec 32} {w : Lane} (hw : Pair x y w) (h : 8 * c + 8 ≤ m.length) :
    ∃ m1 m', str m (8 * c) x = some m1 ∧ str m1 (8 * c + 4) y = some m' ∧ Stored m m' c 1 (fun _ => w) := by
  obtain ⟨m1, m', h1, h2, h3⟩ := str2 m (8 * c) x y h (f := KeccakP1600.byteOf w) hw.lo hw.hi
  refine ⟨m1, m', h1, h2, h3.len, fun q => ?_⟩
  rw [h3.byte]
  by_cases hc : 8 * c ≤ q ∧ q < 8 * c + 8
  · rw [if_pos hc, if_pos (by omega), show q - 8 * c = q % 8 by omega]
  · rw [if_neg hc, if_neg (by omega)]

theorem ldrd_ok (m : Bytes) (c : Nat) (h : 8 * c + 8 ≤ m.length) : ∃ x y, ldrd m (8 * c) = some (x, y) ∧ Pair x y (wd m c) := by
  obtain ⟨x, y, h1, h2, h3⟩ := ldPair m c h
  refine ⟨x, y, ?_, h3⟩
  unfold ldrd
  rw [if_pos (by omega), h1, h2]; rfl

theorem strd_ok (m : Bytes) (c : Nat) {x y : BitVec 32} {w : Lane} (hw : Pair x y w) (h : 8 * c + 8 ≤ m.length) :
    ∃ m', strd m (8 * c) x y = some m' ∧ Stored m m' c 1 (fun _ => w) := by
  obtain ⟨m1, m', h1, h2, h3⟩ := stPair m c hw h
  refine ⟨m', ?_, h3⟩
  unfold strd
  rw [if_pos (by omega), h1]; exact h2

/-- The two lanes of a row. -/
theorem row_upd {m m1 m2 : Bytes} {p : Nat} {v : Nat → Lane} {g : Nat → Nat → Lane → Lane} (h1 : Stored m m1 (p * 2) 1 (fun _ => v 0))
    (h2 : Stored m1 m2 (p * 2 + 1) 1 (fun _ => v 1)) (hg : ∀ k < 2, v k = g k p (wd m (p * 2 + k))) : SUpd 2 m m2 p (p + 1) g := by
  refine ⟨h2.len.trans h1.len, fun k hk p' => ?_⟩
  rw [h2.wd, h1.wd]
  by_cases hc : p ≤ p' ∧ p' < p + 1
  · obtain rfl : p' = p := by omega
    rw [if_pos hc, ← hg k hk]
    match k, hk with
    | 0, _ => rw [if_neg (by omega), if_pos (by omega)]
    | 1, _ => rw [if_pos (by omega)]
  · rw [if_neg hc, if_neg (by omega), if_neg (by omega)]

variable {lo lc : Nat}

/-- The pointers before row `p`. -/
def At (lo p : Nat) (s : Ln) : Prop := s.r0 = 8 * (p * 2) ∧ s.r1 = 8 * p ∧ s.r3 = 8 * (lo + p)

theorem At.start (h : lo * 1 * 8 < 2 ^ 32) (out : Bytes) : At lo 0 ⟨out, 0, 0, Simd.ptr lo 1⟩ :=
  ⟨rfl, rfl, by rw [Simd.ptr_eq lo 1 h, Nat.one_mul, Nat.add_zero]⟩

theorem aligned_inv {one two : Ln → Option Ln} (P : Nat → Ln → Prop)
    (h1 : ∀ p s, p + 1 ≤ lc → P p s → ∃ s', one s = some s' ∧ P (p + 1) s')
    (h2 : ∀ p s, p + 2 ≤ lc → P p s → ∃ s', two s = some s' ∧ P (p + 2) s') (hl : 0 < lc) (h25 : lc ≤ 25) (s : Ln) (h : P 0 s) :
    ∃ s', aligned one two lc s = some s' ∧ P lc s' := by
  unfold aligned
  by_cases c : lc % 2 = 0
  · rw [if_pos c]
    obtain ⟨s', e, p⟩ := countLoop_inv two P 2 lc h2 (2 ^ 32) (lc / 2) 0 s (by omega) (by omega) (by omega) (by omega) h
    exact ⟨s', e, by rwa [show 0 + 2 * (lc / 2) = lc by omega] at p⟩
  · rw [if_neg c]
    obtain ⟨s1, e1, p1⟩ := h1 0 s (by omega) h
    rw [e1]
    simp only [Option.bind_eq_bind, Option.bind_some]
    by_cases c2 : lc / 2 = 0
    · rw [if_pos c2]
      exact ⟨s1, rfl, by rwa [show 0 + 1 = lc by omega] at p1⟩
    · rw [if_neg c2]
      obtain ⟨s', e, p⟩ := countLoop_inv two P 2 lc h2 (2 ^ 32) (lc / 2) 1 s1 (by omega) (by omega) (by omega) (by omega) p1
      exact ⟨s', e, by rwa [show 1 + 2 * (lc / 2) = lc by omega] at p⟩

theorem loop_inv {one : Ln → Option Ln} (P : Nat → Ln → Prop) (h1 : ∀ p s, p + 1 ≤ lc → P p s → ∃ s', one s = some s' ∧ P (p + 1) s')
    (hl : 0 < lc) (h25 : lc ≤ 25) (s : Ln) (h : P 0 s) : ∃ s', countLoop one (2 ^ 32) lc s = some s' ∧ P lc s' := by
  obtain ⟨s', e, p⟩ := countLoop_inv one P 1 lc h1 (2 ^ 32) lc 0 s hl (by omega) (by omega) (by omega) h
  exact ⟨s', e, by rwa [show 0 + 1 * lc = lc by omega] at p⟩

theorem acc0 {buf : Bytes} (ha : Acc 2 lo lc buf) {p : Nat} (hp : p < lc) : 8 * p + 8 ≤ buf.length := by
  have := Simd.inBuf_word ha.inBuf 0 (by omega)
  omega

theorem acc1 {buf : Bytes} (ha : Acc 2 lo lc buf) {p : Nat} (hp : p < lc) : 8 * (lo + p) + 8 ≤ buf.length := by
  have := Simd.inBuf_word ha.inBuf 1 (by omega)
  rw [Nat.one_mul] at this
  omega

/-! ### `AddLanesAll` -/

theorem addRow_upd {data : Bytes} (ha : Acc 2 lo lc data) {st : Bytes} (hm : st.length = 400) (p : Nat) (hp : p < lc) (h25 : lc ≤ 25) :
    ∃ st', addRow data ⟨st, 8 * (p * 2), 8 * p, 8 * (lo + p)⟩ = some ⟨st', 8 * (p * 2) + 8 + 8, 8 * p + 8, 8 * (lo + p) + 8⟩ ∧
      SUpd 2 st st' p (p + 1) (fun k p x => x ^^^ wd data (k * lo + p)) := by
  obtain ⟨x, y, a1, a2, a3⟩ := ldPair data p (acc0 ha hp)
  obtain ⟨z, t, b1, b2⟩ := ldrd_ok st (p * 2) (by omega)
  obtain ⟨m1, c1, c2⟩ := strd_ok st (p * 2) (b2.xor a3) (by omega)
  have hl : m1.length = 400 := c2.len.trans hm
  obtain ⟨x', y', d1, d2, d3⟩ := ldPair data (lo + p) (acc1 ha hp)
  obtain ⟨z', t', e1, e2⟩ := ldrd_ok m1 (p * 2 + 1) (by omega)
  obtain ⟨m2, f1, f2⟩ := strd_ok m1 (p * 2 + 1) (e2.xor d3) (by omega)
  refine ⟨m2, ?_, row_upd (m1 := m1) (v := fun k => wd st (p * 2 + k) ^^^ wd data (k * lo + p)) ?_ ?_ fun k hk => rfl⟩
  · unfold addRow
    simp only [Option.bind_eq_bind]
    rw [a1, Option.bind_some, a2, Option.bind_some, b1, Option.bind_some]
    simp only
    rw [c1, Option.bind_some, d1, Option.bind_some, d2, Option.bind_some, show 8 * (p * 2) + 8 = 8 * (p * 2 + 1) by omega, e1, Option.bind_some]
    simp only
    rw [f1, Option.bind_some]
  · simpa using c2
  · have e : wd m1 (p * 2 + 1) = wd st (p * 2 + 1) := by rw [c2.wd, if_neg (by omega)]
    rw [e] at f2
    simpa using f2

theorem addLanesAll_upd {data mem : Bytes} (hm : mem.length = 400) (h25 : lc ≤ 25) (ha : Acc 2 lo lc data) :
    ∃ mem', addLanesAll mem data lc lo = some mem' ∧ SUpd 2 mem mem' 0 lc (fun k p x => x ^^^ wd data (k * lo + p)) := by
  unfold addLanesAll
  by_cases h0 : lc = 0
  · subst h0; rw [if_pos rfl]; exact ⟨mem, rfl, SUpd.refl _ _ _⟩
  · rw [if_neg h0]
    obtain ⟨s, e, _, u⟩ := loop_inv (lc := lc) (one := addRow data)
      (fun p s => At lo p s ∧ SUpd 2 mem s.out 0 p (fun k p x => x ^^^ wd data (k * lo + p)))
      (fun p s hp h => by
        obtain ⟨out, r0, r1, r3⟩ := s
        obtain ⟨⟨e0, e1, e3⟩, u⟩ := h
        change r0 = _ at e0; change r1 = _ at e1; change r3 = _ at e3
        subst e0; subst e1; subst e3
        obtain ⟨st', e, u'⟩ := addRow_upd ha (st := out) (u.len.trans hm) p hp h25
        exact ⟨_, e, ⟨by simp only; omega, by simp only; omega, by simp only; omega⟩, u.trans u' (by omega) (by omega)⟩)
      (by omega) h25 ⟨mem, 0, 0, Simd.ptr lo 1⟩ ⟨At.start (ha.small 1 (by omega)) _, SUpd.refl _ _ _⟩
    exact ⟨s.out, by rw [e]; rfl, u⟩

/-! ### `OverwriteLanesAll` -/

theorem overwriteRow_upd {base : Nat} (hb : base % 4 = 0) {data : Bytes} (ha : Acc 2 lo lc data) {st : Bytes} (hm : st.length = 400) (p : Nat)
    (hp : p < lc) (h25 : lc ≤ 25) :
    ∃ st', overwriteRow base data ⟨st, 8 * (p * 2), 8 * p, 8 * (lo + p)⟩ = some ⟨st', 8 * (p * 2) + 16, 8 * p + 8, 8 * (lo + p) + 8⟩ ∧
      SUpd 2 st st' p (p + 1) (fun k p _ => wd data (k * lo + p)) := by
  obtain ⟨m1, c1, c2⟩ := vstm_ok 0 st (p * 2) (wd data p) rfl (by omega)
  have hl : m1.length = 400 := c2.len.trans hm
  obtain ⟨m2, f1, f2⟩ := vstm_ok 0 m1 (p * 2 + 1) (wd data (lo + p)) rfl (by omega)
  refine ⟨m2, ?_, row_upd (m1 := m1) (v := fun k => wd data (k * lo + p)) ?_ ?_ fun k hk => rfl⟩
  · unfold overwriteRow
    simp only [Option.bind_eq_bind]
    rw [vldm_ok _ _ _ hb (acc0 ha hp), Option.bind_some, vldm_ok _ _ _ hb (acc1 ha hp), Option.bind_some, c1, Option.bind_some,
      show 8 * (p * 2) + 8 = 8 * (p * 2 + 1) by omega, f1, Option.bind_some]
  · simpa using c2
  · simpa using f2

theorem overwriteRows_upd {base : Nat} (hb : base % 4 = 0) {data : Bytes} (ha : Acc 2 lo lc data) {st : Bytes} (hm : st.length = 400) (p : Nat)
    (hp : p + 2 ≤ lc) (h25 : lc ≤ 25) :
    ∃ st', overwriteRows base data ⟨st, 8 * (p * 2), 8 * p, 8 * (lo + p)⟩ =
        some ⟨st', 8 * (p * 2) + 32, 8 * p + 8 + 8, 8 * (lo + p) + 8 + 8⟩ ∧
      SUpd 2 st st' p (p + 2) (fun k p _ => wd data (k * lo + p)) := by
  obtain ⟨m1, c1, c2⟩ := vstm_ok 0 st (p * 2) (wd data p) rfl (by omega)
  have hl1 : m1.length = 400 := c2.len.trans hm
  obtain ⟨m2, f1, f2⟩ := vstm_ok 0 m1 (p * 2 + 1) (wd data (lo + p)) rfl (by omega)
  have hl2 : m2.length = 400 := f2.len.trans hl1
  obtain ⟨m3, g1, g2⟩ := vstm_ok 0 m2 ((p + 1) * 2) (wd data (p + 1)) rfl (by omega)
  have hl3 : m3.length = 400 := g2.len.trans hl2
  obtain ⟨m4, k1, k2⟩ := vstm_ok 0 m3 ((p + 1) * 2 + 1) (wd data (lo + (p + 1))) rfl (by omega)
  refine ⟨m4, ?_, SUpd.trans (b := p + 1) (row_upd (m1 := m1) (m2 := m2) (v := fun k => wd data (k * lo + p)) ?_ ?_ fun k hk => rfl)
    (row_upd (m1 := m3) (v := fun k => wd data (k * lo + (p + 1))) ?_ ?_ fun k hk => rfl) (by omega) (by omega)⟩
  · unfold overwriteRows
    simp only [Option.bind_eq_bind]
    rw [vldm_ok _ _ _ hb (acc0 ha (by omega)), Option.bind_some, show 8 * p + 8 = 8 * (p + 1) by omega, vldm_ok _ _ _ hb (acc0 ha (by omega)),
      Option.bind_some, vldm_ok _ _ _ hb (acc1 ha (by omega)), Option.bind_some, show 8 * (lo + p) + 8 = 8 * (lo + (p + 1)) by omega,
      vldm_ok _ _ _ hb (acc1 ha (by omega)), Option.bind_some, c1, Option.bind_some,
      show 8 * (p * 2) + 8 = 8 * (p * 2 + 1) by omega, f1, Option.bind_some, show 8 * (p * 2) + 16 = 8 * ((p + 1) * 2) by omega, g1,
      Option.bind_some, show 8 * (p * 2) + 24 = 8 * ((p + 1) * 2 + 1) by omega, k1, Option.bind_some]
  · simpa using c2
  · simpa using f2
  · simpa using g2
  · simpa using k2

theorem overwriteRowU_upd {data : Bytes} (ha : Acc 2 lo lc data) {st : Bytes} (hm : st.length = 400) (p : Nat) (hp : p < lc) (h25 : lc ≤ 25) :
    ∃ st', overwriteRowU data ⟨st, 8 * (p * 2), 8 * p, 8 * (lo + p)⟩ = some ⟨st', 8 * (p * 2) + 8 + 8, 8 * p + 8, 8 * (lo + p) + 8⟩ ∧
      SUpd 2 st st' p (p + 1) (fun k p _ => wd data (k * lo + p)) := by
  obtain ⟨x, y, a1, a2, a3⟩ := ldPair data p (acc0 ha hp)
  obtain ⟨m1, c1, c2⟩ := strd_ok st (p * 2) a3 (by omega)
  have hl : m1.length = 400 := c2.len.trans hm
  obtain ⟨x', y', d1, d2, d3⟩ := ldPair data (lo + p) (acc1 ha hp)
  obtain ⟨m2, f1, f2⟩ := strd_ok m1 (p * 2 + 1) d3 (by omega)
  refine ⟨m2, ?_, row_upd (m1 := m1) (v := fun k => wd data (k * lo + p)) ?_ ?_ fun k hk => rfl⟩
  · unfold overwriteRowU
    simp only [Option.bind_eq_bind]
    rw [a1, Option.bind_some, a2, Option.bind_some, c1, Option.bind_some, d1, Option.bind_some, d2, Option.bind_some,
      show 8 * (p * 2) + 8 = 8 * (p * 2 + 1) by omega, f1, Option.bind_some]
  · simpa using c2
  · simpa using f2

theorem overwriteLanesAll_upd (base : Nat) {data mem : Bytes} (hm : mem.length = 400) (h25 : lc ≤ 25) (ha : Acc 2 lo lc data) :
    ∃ mem', overwriteLanesAll base mem data lc lo = some mem' ∧ SUpd 2 mem mem' 0 lc (fun k p _ => wd data (k * lo + p)) := by
  unfold overwriteLanesAll
  by_cases h0 : lc = 0
  · subst h0; rw [if_pos rfl]; exact ⟨mem, rfl, SUpd.refl _ _ _⟩
  · rw [if_neg h0]
    let P : Nat → Ln → Prop := fun p s => At lo p s ∧ SUpd 2 mem s.out 0 p (fun k p _ => wd data (k * lo + p))
    have hs : P 0 ⟨mem, 0, 0, Simd.ptr lo 1⟩ := ⟨At.start (ha.small 1 (by omega)) _, SUpd.refl _ _ _⟩
    by_cases hb : base % 8 ≠ 0
    · rw [if_pos hb]
      obtain ⟨s, e, _, u⟩ := loop_inv (lc := lc) (one := overwriteRowU data) P
        (fun p s hp h => by
          obtain ⟨out, r0, r1, r3⟩ := s
          obtain ⟨⟨e0, e1, e3⟩, u⟩ := h
          change r0 = _ at e0; change r1 = _ at e1; change r3 = _ at e3
          subst e0; subst e1; subst e3
          obtain ⟨st', e, u'⟩ := overwriteRowU_upd ha (st := out) (u.len.trans hm) p hp h25
          exact ⟨_, e, ⟨by simp only; omega, by simp only; omega, by simp only; omega⟩, u.trans u' (by omega) (by omega)⟩)
        (by omega) h25 _ hs
      exact ⟨s.out, by rw [e]; rfl, u⟩
    · rw [if_neg hb]
      obtain ⟨s, e, _, u⟩ := aligned_inv (lc := lc) (one := overwriteRow base data) (two := overwriteRows base data) P
        (fun p s hp h => by
          obtain ⟨out, r0, r1, r3⟩ := s
          obtain ⟨⟨e0, e1, e3⟩, u⟩ := h
          change r0 = _ at e0; change r1 = _ at e1; change r3 = _ at e3
          subst e0; subst e1; subst e3
          obtain ⟨st', e, u'⟩ := overwriteRow_upd (base := base) (by omega) ha (st := out) (u.len.trans hm) p hp h25
          exact ⟨_, e, ⟨by simp only; omega, by simp only; omega, by simp only; omega⟩, u.trans u' (by omega) (by omega)⟩)
        (fun p s hp h => by
          obtain ⟨out, r0, r1, r3⟩ := s
          obtain ⟨⟨e0, e1, e3⟩, u⟩ := h
          change r0 = _ at e0; change r1 = _ at e1; change r3 = _ at e3
          subst e0; subst e1; subst e3
          obtain ⟨st', e, u'⟩ := overwriteRows_upd (base := base) (by omega) ha (st := out) (u.len.trans hm) p hp h25
          exact ⟨_, e, ⟨by simp only; omega, by simp only; omega, by simp only; omega⟩, u.trans u' (by omega) (by omega)⟩)
        (by omega) h25 _ hs
      exact ⟨s.out, by rw [e]; rfl, u⟩

/-! ### `ExtractLanesAll` and `ExtractAndAddLanesAll` -/

/-- Writing one lane of the output. -/
theorem put0 {out out' : Bytes} {p : Nat} {w : Lane} {f : Nat → Nat → Lane} (h : Stored out out' p 1 (fun _ => w)) (hlo : lc ≤ lo) (hp : p < lc)
    (hf : w = f 0 p) : OUpd lo out out' 0 1 p (p + 1) f :=
  OUpd.of_stored (k := 0) (by rwa [Nat.zero_mul, Nat.zero_add]) (by omega) fun j hj => by
    obtain rfl : j = 0 := by omega
    exact hf

theorem put1 {out out' : Bytes} {p : Nat} {w : Lane} {f : Nat → Nat → Lane} (h : Stored out out' (lo + p) 1 (fun _ => w)) (hlo : lc ≤ lo)
    (hp : p < lc) (hf : w = f 1 p) : OUpd lo out out' 1 2 p (p + 1) f :=
  OUpd.of_stored (k := 1) (by rwa [Nat.one_mul]) (by omega) fun j hj => by
    obtain rfl : j = 0 := by omega
    exact hf

theorem extractRow_upd {base : Nat} (hb : base % 4 = 0) {st : Bytes} (hm : st.length = 400) {out : Bytes} (ha : Acc 2 lo lc out) (hlo : lc ≤ lo)
    (p : Nat) (hp : p < lc) (h25 : lc ≤ 25) :
    ∃ out', extractRow base st ⟨out, 8 * (p * 2), 8 * p, 8 * (lo + p)⟩ = some ⟨out', 8 * (p * 2) + 16, 8 * p + 8, 8 * (lo + p) + 8⟩ ∧
      OUpd lo out out' 0 2 p (p + 1) (fun k p => wd st (p * 2 + k)) := by
  obtain ⟨m1, c1, c2⟩ := vstm_ok base out p (wd st (p * 2)) hb (acc0 ha hp)
  obtain ⟨m2, f1, f2⟩ := vstm_ok base m1 (lo + p) (wd st (p * 2 + 1)) hb (by rw [c2.len]; exact acc1 ha hp)
  refine ⟨m2, ?_, (put0 c2 hlo hp rfl).rows (put1 f2 hlo hp rfl) (by omega) (by omega)⟩
  unfold extractRow
  simp only [Option.bind_eq_bind]
  rw [vldm_ok 0 st _ rfl (by omega), Option.bind_some, show 8 * (p * 2) + 8 = 8 * (p * 2 + 1) by omega, vldm_ok 0 st _ rfl (by omega),
    Option.bind_some, c1, Option.bind_some, f1, Option.bind_some]

theorem extractRows_upd {base : Nat} (hb : base % 4 = 0) {st : Bytes} (hm : st.length = 400) {out : Bytes} (ha : Acc 2 lo lc out) (hlo : lc ≤ lo)
    (p : Nat) (hp : p + 2 ≤ lc) (h25 : lc ≤ 25) :
    ∃ out', extractRows base st ⟨out, 8 * (p * 2), 8 * p, 8 * (lo + p)⟩ =
        some ⟨out', 8 * (p * 2) + 32, 8 * p + 8 + 8, 8 * (lo + p) + 8 + 8⟩ ∧
      OUpd lo out out' 0 2 p (p + 2) (fun k p => wd st (p * 2 + k)) := by
  obtain ⟨m1, c1, c2⟩ := vstm_ok base out p (wd st (p * 2)) hb (acc0 ha (by omega))
  have a1 := ha.congr c2.len
  obtain ⟨m2, d1, d2⟩ := vstm_ok base m1 (p + 1) (wd st ((p + 1) * 2)) hb (acc0 a1 (by omega))
  have a2 := a1.congr d2.len
  obtain ⟨m3, e1, e2⟩ := vstm_ok base m2 (lo + p) (wd st (p * 2 + 1)) hb (acc1 a2 (by omega))
  have a3 := a2.congr e2.len
  obtain ⟨m4, f1, f2⟩ := vstm_ok base m3 (lo + (p + 1)) (wd st ((p + 1) * 2 + 1)) hb (acc1 a3 (by omega))
  refine ⟨m4, ?_, ((put0 c2 hlo (by omega) rfl).cols (put0 d2 hlo (by omega) rfl) (by omega) (by omega)).rows
    ((put1 e2 hlo (by omega) rfl).cols (put1 f2 hlo (by omega) rfl) (by omega) (by omega)) (by omega) (by omega)⟩
  unfold extractRows
  simp only [Option.bind_eq_bind]
  rw [vldm_ok 0 st _ rfl (by omega), Option.bind_some, show 8 * (p * 2) + 8 = 8 * (p * 2 + 1) by omega, vldm_ok 0 st _ rfl (by omega),
    Option.bind_some, show 8 * (p * 2) + 16 = 8 * ((p + 1) * 2) by omega, vldm_ok 0 st _ rfl (by omega), Option.bind_some,
    show 8 * (p * 2) + 24 = 8 * ((p + 1) * 2 + 1) by omega, vldm_ok 0 st _ rfl (by omega), Option.bind_some, c1, Option.bind_some,
    show 8 * p + 8 = 8 * (p + 1) by omega, d1, Option.bind_some, e1, Option.bind_some, show 8 * (lo + p) + 8 = 8 * (lo + (p + 1)) by omega, f1,
    Option.bind_some]

theorem extractRowU_upd {st : Bytes} (hm : st.length = 400) {out : Bytes} (ha : Acc 2 lo lc out) (hlo : lc ≤ lo)
    (p : Nat) (hp : p < lc) (h25 : lc ≤ 25) :
    ∃ out', extractRowU st ⟨out, 8 * (p * 2), 8 * p, 8 * (lo + p)⟩ = some ⟨out', 8 * (p * 2) + 8 + 8, 8 * p + 8, 8 * (lo + p) + 8⟩ ∧
      OUpd lo out out' 0 2 p (p + 1) (fun k p => wd st (p * 2 + k)) := by
  obtain ⟨x, y, a1, a2⟩ := ldrd_ok st (p * 2) (by omega)
  obtain ⟨z, t, b1, b2⟩ := ldrd_ok st (p * 2 + 1) (by omega)
  obtain ⟨n1, m1, c0, c1, c2⟩ := stPair out p a2 (acc0 ha hp)
  obtain ⟨n2, m2, f0, f1, f2⟩ := stPair m1 (lo + p) b2 (by rw [c2.len]; exact acc1 ha hp)
  refine ⟨m2, ?_, (put0 c2 hlo hp rfl).rows (put1 f2 hlo hp rfl) (by omega) (by omega)⟩
  unfold extractRowU
  simp only [Option.bind_eq_bind]
  rw [a1, Option.bind_some]
  simp only
  rw [c0, Option.bind_some, c1, Option.bind_some, show 8 * (p * 2) + 8 = 8 * (p * 2 + 1) by omega, b1, Option.bind_some]
  simp only
  rw [f0, Option.bind_some, f1, Option.bind_some]

theorem extractLanesAll_upd (base : Nat) {mem out : Bytes} (hm : mem.length = 400) (h25 : lc ≤ 25) (hlo : lc ≤ lo) (ha : Acc 2 lo lc out) :
    ∃ out', extractLanesAll base mem out lc lo = some out' ∧ OUpd lo out out' 0 2 0 lc (fun k p => wd mem (p * 2 + k)) := by
  unfold extractLanesAll
  by_cases h0 : lc = 0
  · subst h0; rw [if_pos rfl]; exact ⟨out, rfl, OUpd.refl _ _ _ _ _⟩
  · rw [if_neg h0]
    let P : Nat → Ln → Prop := fun p s => At lo p s ∧ OUpd lo out s.out 0 2 0 p (fun k p => wd mem (p * 2 + k))
    have hs : P 0 ⟨out, 0, 0, Simd.ptr lo 1⟩ := ⟨At.start (ha.small 1 (by omega)) _, OUpd.refl _ _ _ _ _⟩
    by_cases hb : base % 8 ≠ 0
    · rw [if_pos hb]
      obtain ⟨s, e, _, u⟩ := loop_inv (lc := lc) (one := extractRowU mem) P
        (fun p s hp h => by
          obtain ⟨o, r0, r1, r3⟩ := s
          obtain ⟨⟨e0, e1, e3⟩, u⟩ := h
          change r0 = _ at e0; change r1 = _ at e1; change r3 = _ at e3
          subst e0; subst e1; subst e3
          obtain ⟨st', e, u'⟩ := extractRowU_upd hm (out := o) (ha.congr u.len) hlo p hp h25
          exact ⟨_, e, ⟨by simp only; omega, by simp only; omega, by simp only; omega⟩, u.cols u' (by omega) (by omega)⟩)
        (by omega) h25 _ hs
      exact ⟨s.out, by rw [e]; rfl, u⟩
    · rw [if_neg hb]
      obtain ⟨s, e, _, u⟩ := aligned_inv (lc := lc) (one := extractRow base mem) (two := extractRows base mem) P
        (fun p s hp h => by
          obtain ⟨o, r0, r1, r3⟩ := s
          obtain ⟨⟨e0, e1, e3⟩, u⟩ := h
          change r0 = _ at e0; change r1 = _ at e1; change r3 = _ at e3
          subst e0; subst e1; subst e3
          obtain ⟨st', e, u'⟩ := extractRow_upd (base := base) (by omega) hm (out := o) (ha.congr u.len) hlo p hp h25
          exact ⟨_, e, ⟨by simp only; omega, by simp only; omega, by simp only; omega⟩, u.cols u' (by omega) (by omega)⟩)
        (fun p s hp h => by
          obtain ⟨o, r0, r1, r3⟩ := s
          obtain ⟨⟨e0, e1, e3⟩, u⟩ := h
          change r0 = _ at e0; change r1 = _ at e1; change r3 = _ at e3
          subst e0; subst e1; subst e3
          obtain ⟨st', e, u'⟩ := extractRows_upd (base := base) (by omega) hm (out := o) (ha.congr u.len) hlo p hp h25
          exact ⟨_, e, ⟨by simp only; omega, by simp only; omega, by simp only; omega⟩, u.cols u' (by omega) (by omega)⟩)
        (by omega) h25 _ hs
      exact ⟨s.out, by rw [e]; rfl, u⟩

/-- The function of the words of the input and of the state that is written. -/
abbrev sum (st input : Bytes) (lo : Nat) : Nat → Nat → Lane := fun k p => wd input (k * lo + p) ^^^ wd st (p * 2 + k)

theorem sum0 (st input : Bytes) (p : Nat) : wd st (p * 2) ^^^ wd input p = sum st input lo 0 p := by
  rw [sum, Nat.zero_mul, Nat.zero_add, BitVec.xor_comm]; rfl

theorem sum1 (st input : Bytes) (p : Nat) : wd st (p * 2 + 1) ^^^ wd input (lo + p) = sum st input lo 1 p := by
  rw [sum, Nat.one_mul, BitVec.xor_comm]

theorem extractAddRow_upd {bi bo : Nat} (hbi : bi % 4 = 0) (hbo : bo % 4 = 0) {st : Bytes} (hm : st.length = 400) {input out : Bytes}
    (hi : Acc 2 lo lc input) (ha : Acc 2 lo lc out) (hlo : lc ≤ lo) (p : Nat) (hp : p < lc) (h25 : lc ≤ 25) :
    ∃ out', extractAddRow bi bo st input ⟨out, 8 * (p * 2), 8 * p, 8 * (lo + p)⟩ =
        some ⟨out', 8 * (p * 2) + 16, 8 * p + 8, 8 * (lo + p) + 8⟩ ∧ OUpd lo out out' 0 2 p (p + 1) (sum st input lo) := by
  obtain ⟨m1, c1, c2⟩ := vstm_ok bo out p (wd st (p * 2) ^^^ wd input p) hbo (acc0 ha hp)
  obtain ⟨m2, f1, f2⟩ := vstm_ok bo m1 (lo + p) (wd st (p * 2 + 1) ^^^ wd input (lo + p)) hbo (by rw [c2.len]; exact acc1 ha hp)
  refine ⟨m2, ?_, (put0 c2 hlo hp (sum0 _ _ _)).rows (put1 f2 hlo hp (sum1 _ _ _)) (by omega) (by omega)⟩
  unfold extractAddRow
  simp only [Option.bind_eq_bind]
  rw [vldm_ok 0 st _ rfl (by omega), Option.bind_some, show 8 * (p * 2) + 8 = 8 * (p * 2 + 1) by omega, vldm_ok 0 st _ rfl (by omega),
    Option.bind_some, vldm_ok _ _ _ hbi (acc0 hi hp), Option.bind_some, vldm_ok _ _ _ hbi (acc1 hi hp), Option.bind_some, c1, Option.bind_some, f1,
    Option.bind_some]

theorem extractAddRows_upd {bi bo : Nat} (hbi : bi % 4 = 0) (hbo : bo % 4 = 0) {st : Bytes} (hm : st.length = 400) {input out : Bytes}
    (hi : Acc 2 lo lc input) (ha : Acc 2 lo lc out) (hlo : lc ≤ lo) (p : Nat) (hp : p + 2 ≤ lc) (h25 : lc ≤ 25) :
    ∃ out', extractAddRows bi bo st input ⟨out, 8 * (p * 2), 8 * p, 8 * (lo + p)⟩ =
        some ⟨out', 8 * (p * 2) + 32, 8 * p + 8 + 8, 8 * (lo + p) + 8 + 8⟩ ∧ OUpd lo out out' 0 2 p (p + 2) (sum st input lo) := by
  obtain ⟨m1, c1, c2⟩ := vstm_ok bo out p (wd st (p * 2) ^^^ wd input p) hbo (acc0 ha (by omega))
  have a1 := ha.congr c2.len
  obtain ⟨m2, d1, d2⟩ := vstm_ok bo m1 (p + 1) (wd st ((p + 1) * 2) ^^^ wd input (p + 1)) hbo (acc0 a1 (by omega))
  have a2 := a1.congr d2.len
  obtain ⟨m3, e1, e2⟩ := vstm_ok bo m2 (lo + p) (wd st (p * 2 + 1) ^^^ wd input (lo + p)) hbo (acc1 a2 (by omega))
  have a3 := a2.congr e2.len
  obtain ⟨m4, f1, f2⟩ := vstm_ok bo m3 (lo + (p + 1)) (wd st ((p + 1) * 2 + 1) ^^^ wd input (lo + (p + 1))) hbo (acc1 a3 (by omega))
  refine ⟨m4, ?_, ((put0 c2 hlo (by omega) (sum0 _ _ _)).cols (put0 d2 hlo (by omega) (sum0 _ _ _)) (by omega) (by omega)).rows
    ((put1 e2 hlo (by omega) (sum1 _ _ _)).cols (put1 f2 hlo (by omega) (sum1 _ _ _)) (by omega) (by omega)) (by omega) (by omega)⟩
  unfold extractAddRows
  simp only [Option.bind_eq_bind]
  rw [vldm_ok 0 st _ rfl (by omega), Option.bind_some, show 8 * (p * 2) + 8 = 8 * (p * 2 + 1) by omega, vldm_ok 0 st _ rfl (by omega),
    Option.bind_some, show 8 * (p * 2) + 16 = 8 * ((p + 1) * 2) by omega, vldm_ok 0 st _ rfl (by omega), Option.bind_some,
    show 8 * (p * 2) + 24 = 8 * ((p + 1) * 2 + 1) by omega, vldm_ok 0 st _ rfl (by omega), Option.bind_some,
    vldm_ok _ _ _ hbi (acc0 hi (by omega)), Option.bind_some, show 8 * p + 8 = 8 * (p + 1) by omega, vldm_ok _ _ _ hbi (acc0 hi (by omega)),
    Option.bind_some, vldm_ok _ _ _ hbi (acc1 hi (by omega)), Option.bind_some, show 8 * (lo + p) + 8 = 8 * (lo + (p + 1)) by omega,
    vldm_ok _ _ _ hbi (acc1 hi (by omega)), Option.bind_some, c1, Option.bind_some, d1, Option.bind_some, e1, Option.bind_some, f1,
    Option.bind_some]

theorem extractAddRowU_upd {st : Bytes} (hm : st.length = 400) {input out : Bytes} (hi : Acc 2 lo lc input) (ha : Acc 2 lo lc out) (hlo : lc ≤ lo)
    (p : Nat) (hp : p < lc) (h25 : lc ≤ 25) :
    ∃ out', extractAddRowU st input ⟨out, 8 * (p * 2), 8 * p, 8 * (lo + p)⟩ =
        some ⟨out', 8 * (p * 2) + 8 + 8, 8 * p + 8, 8 * (lo + p) + 8⟩ ∧ OUpd lo out out' 0 2 p (p + 1) (sum st input lo) := by
  obtain ⟨x, y, a1, a2⟩ := ldrd_ok st (p * 2) (by omega)
  obtain ⟨z, t, b1, b2⟩ := ldrd_ok st (p * 2 + 1) (by omega)
  obtain ⟨x', y', g1, g2, g3⟩ := ldPair input p (acc0 hi hp)
  obtain ⟨z', t', k1, k2, k3⟩ := ldPair input (lo + p) (acc1 hi hp)
  obtain ⟨n1, m1, c0, c1, c2⟩ := stPair out p (a2.xor g3) (acc0 ha hp)
  obtain ⟨n2, m2, f0, f1, f2⟩ := stPair m1 (lo + p) (b2.xor k3) (by rw [c2.len]; exact acc1 ha hp)
  refine ⟨m2, ?_, (put0 c2 hlo hp (sum0 _ _ _)).rows (put1 f2 hlo hp (sum1 _ _ _)) (by omega) (by omega)⟩
  unfold extractAddRowU
  simp only [Option.bind_eq_bind]
  rw [a1, Option.bind_some]
  simp only
  rw [g1, Option.bind_some, g2, Option.bind_some, c0, Option.bind_some, c1, Option.bind_some, show 8 * (p * 2) + 8 = 8 * (p * 2 + 1) by omega, b1,
    Option.bind_some]
  simp only
  rw [k1, Option.bind_some, k2, Option.bind_some, f0, Option.bind_some, f1, Option.bind_some]

/-- Both addresses are multiples of 8 when their `orr` is. -/
theorem or_mod {a b : Nat} (h : (a ||| b) % 8 = 0) : a % 8 = 0 ∧ b % 8 = 0 := by
  rw [show (8 : Nat) = 2 ^ 3 from rfl, Nat.or_mod_two_pow] at h
  rw [show (8 : Nat) = 2 ^ 3 from rfl]
  exact ⟨Nat.eq_zero_of_le_zero (h ▸ Nat.left_le_or), Nat.eq_zero_of_le_zero (h ▸ Nat.right_le_or)⟩

theorem extractAndAddLanesAll_upd (bi bo : Nat) {mem input out : Bytes} (hm : mem.length = 400) (h25 : lc ≤ 25) (hlo : lc ≤ lo)
    (hi : Acc 2 lo lc input) (ha : Acc 2 lo lc out) :
    ∃ out', extractAndAddLanesAll bi bo mem input out lc lo = some out' ∧
      OUpd lo out out' 0 2 0 lc (fun k p => wd input (k * lo + p) ^^^ wd mem (p * 2 + k)) := by
  unfold extractAndAddLanesAll
  by_cases h0 : lc = 0
  · subst h0; rw [if_pos rfl]; exact ⟨out, rfl, OUpd.refl _ _ _ _ _⟩
  · rw [if_neg h0]
    let P : Nat → Ln → Prop := fun p s => At lo p s ∧ OUpd lo out s.out 0 2 0 p (sum mem input lo)
    have hs : P 0 ⟨out, 0, 0, Simd.ptr lo 1⟩ := ⟨At.start (ha.small 1 (by omega)) _, OUpd.refl _ _ _ _ _⟩
    by_cases hb : (bi ||| bo) % 8 ≠ 0
    · rw [if_pos hb]
      obtain ⟨s, e, _, u⟩ := loop_inv (lc := lc) (one := extractAddRowU mem input) P
        (fun p s hp h => by
          obtain ⟨o, r0, r1, r3⟩ := s
          obtain ⟨⟨e0, e1, e3⟩, u⟩ := h
          change r0 = _ at e0; change r1 = _ at e1; change r3 = _ at e3
          subst e0; subst e1; subst e3
          obtain ⟨st', e, u'⟩ := extractAddRowU_upd hm hi (out := o) (ha.congr u.len) hlo p hp h25
          exact ⟨_, e, ⟨by simp only; omega, by simp only; omega, by simp only; omega⟩, u.cols u' (by omega) (by omega)⟩)
        (by omega) h25 _ hs
      exact ⟨s.out, by rw [e]; rfl, u⟩
    · rw [if_neg hb]
      obtain ⟨h1, h2⟩ := or_mod (not_not.mp hb)
      obtain ⟨s, e, _, u⟩ := aligned_inv (lc := lc) (one := extractAddRow bi bo mem input) (two := extractAddRows bi bo mem input) P
        (fun p s hp h => by
          obtain ⟨o, r0, r1, r3⟩ := s
          obtain ⟨⟨e0, e1, e3⟩, u⟩ := h
          change r0 = _ at e0; change r1 = _ at e1; change r3 = _ at e3
          subst e0; subst e1; subst e3
          obtain ⟨st', e, u'⟩ := extractAddRow_upd (bi := bi) (bo := bo) (by omega) (by omega) hm hi (out := o) (ha.congr u.len) hlo p hp h25
          exact ⟨_, e, ⟨by simp only; omega, by simp only; omega, by simp only; omega⟩, u.cols u' (by omega) (by omega)⟩)
        (fun p s hp h => by
          obtain ⟨o, r0, r1, r3⟩ := s
          obtain ⟨⟨e0, e1, e3⟩, u⟩ := h
          change r0 = _ at e0; change r1 = _ at e1; change r3 = _ at e3
          subst e0; subst e1; subst e3
          obtain ⟨st', e, u'⟩ := extractAddRows_upd (bi := bi) (bo := bo) (by omega) (by omega) hm hi (out := o) (ha.congr u.len) hlo p hp h25
          exact ⟨_, e, ⟨by simp only; omega, by simp only; omega, by simp only; omega⟩, u.cols u' (by omega) (by omega)⟩)
        (by omega) h25 _ hs
      exact ⟨s.out, by rw [e]; rfl, u⟩

/-! ### The implementation -/

/-- The implementation with the functions on bytes of the C implementations. -/
def withC (J : Junk) (A : Addr) : PlSnPFallback.Par :=
  { impl J A with
    initAll := Interleaved.initAll
    addByte := Interleaved.addByte 2
    addBytes := Interleaved.addBytes 2
    overwriteBytes := Interleaved.overwriteBytes 2
    overwriteWithZeroes := Interleaved.overwriteWithZeroes 2
    extractBytes := Interleaved.extractBytes 2
    extractAndAddBytes := Interleaved.extractAndAddBytes 2 }

theorem withC_ok (J : Junk) (A : Addr) (h8 : J.sp % 8 = 0) (hsp : 72 ≤ J.sp) :
    PlSpec.Independent (withC J A) 200 PlSnPFallback.keccak (view 2) :=
  Simd.independent_of (N := 2) (by omega) rfl rfl rfl rfl rfl rfl rfl rfl rfl rfl
    (fun _ _ _ _ hm h25 ha => addLanesAll_upd hm h25 ha) (fun _ _ _ _ hm h25 ha => overwriteLanesAll_upd A.data hm h25 ha)
    (fun _ _ _ _ hm h25 hlo ha => extractLanesAll_upd A.output hm h25 hlo ha)
    (fun _ _ _ _ _ hm h25 hlo hi ha => extractAndAddLanesAll_upd A.input A.output hm h25 hlo hi ha)
    (fun p mem hm => by
      obtain ⟨m', e, l, v⟩ := permuteAll_ok J h8 hsp p mem
      exact ⟨m', e, l.trans hm.symm, v⟩)

theorem impl_ok (J : Junk) (A : Addr) (h8 : J.sp % 8 = 0) (hsp : 72 ≤ J.sp) :
    PlSpec.Independent (impl J A) 200 PlSnPFallback.keccak (view 2) := by
  have H := withC_ok J A h8 hsp
  have eU : ∀ {x y : Option Bytes} {i a b : Nat} {mem : Bytes} {g : Nat → Byte → Byte}, mem.length = 400 →
      (∃ m, x = some m ∧ Interleaved.Upd 2 i mem m a b g) → (∃ m, y = some m ∧ Interleaved.Upd 2 i mem m a b g) → y = x := by
    rintro x y i a b mem g hm ⟨m1, rfl, u1⟩ ⟨m2, rfl, u2⟩
    rw [upd_unique hm u2 u1]
  exact
    { width := H.width
      initAll := fun mem hm => by
        have e : (impl J A).initAll mem = (withC J A).initAll mem := by
          show initAll mem = some (Bytes.zeros mem.length)
          rw [initAll_eq hm, show mem.length = 400 from hm]
        rw [e]; exact H.initAll mem hm
      addByte := fun mem hm i hi b off ho => by
        have e : (impl J A).addByte mem i b off = (withC J A).addByte mem i b off :=
          eU hm (Interleaved.addByte_upd (by decide : (2 : Nat) < 256) hi hm b off ho) (addByte_upd hi hm b off ho)
        rw [e]; exact H.addByte mem hm i hi b off ho
      addBytes := fun mem hm i hi data off ho => by
        have e : (impl J A).addBytes mem i data off = (withC J A).addBytes mem i data off :=
          eU hm (Interleaved.addBytes_upd (by decide : (2 : Nat) < 256) hi hm data off ho) (addBytes_upd hi hm data off ho)
        rw [e]; exact H.addBytes mem hm i hi data off ho
      addLanesAll := H.addLanesAll
      overwriteBytes := fun mem hm i hi data off ho => by
        have e : (impl J A).overwriteBytes mem i data off = (withC J A).overwriteBytes mem i data off :=
          eU hm (Interleaved.overwriteBytes_upd (by decide : (2 : Nat) < 256) hi hm data off ho) (overwriteBytes_upd hi hm data off ho)
        rw [e]; exact H.overwriteBytes mem hm i hi data off ho
      overwriteLanesAll := H.overwriteLanesAll
      overwriteWithZeroes := fun mem hm i hi n hn => by
        have e : (impl J A).overwriteWithZeroes mem i n = (withC J A).overwriteWithZeroes mem i n :=
          eU hm (Interleaved.overwriteWithZeroes_upd (by decide : (2 : Nat) < 256) hi hm n hn) (overwriteWithZeroes_upd hi hm n hn)
        rw [e]; exact H.overwriteWithZeroes mem hm i hi n hn
      permuteAll := H.permuteAll
      extractBytes := fun mem hm i hi off len ho => by
        have e : (impl J A).extractBytes mem i off len = (withC J A).extractBytes mem i off len :=
          (extractBytes_eq hi hm off len ho).trans (Interleaved.extractBytes_eq (by decide : (2 : Nat) < 256) hi hm off len ho).symm
        rw [e]; exact H.extractBytes mem hm i hi off len ho
      extractLanesAll := H.extractLanesAll
      extractAndAddBytes := fun mem hm i hi input off ho => by
        have e : (impl J A).extractAndAddBytes mem i input off = (withC J A).extractAndAddBytes mem i input off :=
          (extractAndAddBytes_eq hi hm input off ho).trans (Interleaved.extractAndAddBytes_eq (by decide : (2 : Nat) < 256) hi hm input off ho).symm
        rw [e]; exact H.extractAndAddBytes mem hm i hi input off ho
      extractAndAddLanesAll := H.extractAndAddLanesAll }

end Times2Neon
