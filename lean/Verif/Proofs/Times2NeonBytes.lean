import Verif.Proofs.Times2Neon
import Verif.Proofs.Simd32Mem
import Verif.Proofs.XoodooArmBytes

/-!
The functions on bytes and on lanes of the two-state ARMv7-A NEON implementation in assembly.
-/

namespace Times2Neon

open KeccakP1600 (Lane)
open Simd (pos wd Stored SUpd OUpd Acc view)
open Interleaved (Upd bytesFrom)
open XoodooArm (ldrb strb Wr Ex Ea addOne overwriteOne extractOne extractAddOne sub32_eq ldrb_ok)

/-! ### Accesses -/

/-- `n` bytes from `a` on become `f 0`, `f 1`, ... -/
structure BUpd (m m' : Bytes) (a n : Nat) (f : Nat → Byte) : Prop where
  len : m'.length = m.length
  byte : ∀ q, m'.getD q 0 = if a ≤ q ∧ q < a + n then f (q - a) else m.getD q 0

theorem setAt_bupd (m d : Bytes) (a : Nat) (h : a + d.length ≤ m.length) :
    ∃ m', SnP.overwriteBytes m d a = some m' ∧ BUpd m m' a d.length (fun k => d.getD k 0) := by
  refine ⟨_, by unfold SnP.overwriteBytes; rw [if_pos h], by simp, fun q => Simd.getD_setAt _ _ _ _ h⟩

theorem BUpd.congr {m m' : Bytes} {a n : Nat} {f g : Nat → Byte} (h : BUpd m m' a n f) (e : ∀ k < n, f k = g k) : BUpd m m' a n g := by
  refine ⟨h.len, fun q => ?_⟩
  rw [h.byte]
  split
  · exact e _ (by omega)
  · rfl

theorem strb_bupd (m : Bytes) (a : Nat) (b : Byte) (h : a < m.length) : ∃ m', strb m a b = some m' ∧ BUpd m m' a 1 (fun _ => b) := by
  refine ⟨m.set a b, by unfold strb; rw [if_pos h], by simp, fun q => ?_⟩
  rw [List.getD_eq_getElem?_getD, List.getElem?_set]
  by_cases e : a = q
  · rw [if_pos e, if_pos (by omega), if_pos (by omega)]; rfl
  · rw [if_neg e, if_neg (by omega), List.getD_eq_getElem?_getD]

theorem ldr_ok (m : Bytes) (a : Nat) (h : a + 4 ≤ m.length) :
    ∃ w, ldr m a = some w ∧ ∀ k < 4, Xoodoo.byteOf w k = m.getD (a + k) 0 := by
  refine ⟨Xoodoo.wordOfBytes (m.drop a), ?_, fun k hk => ?_⟩
  · unfold ldr Simd32.loadWord SnP.readBuf
    rw [if_pos (by rw [List.length_drop]; omega), Option.map_some, Xoodoo.wordOfBytes_take]
  · rw [Xoodoo.byteOf_wordOfBytes _ _ hk]
    simp [List.getD_eq_getElem?_getD, List.getElem?_drop]

theorem str_ok (m : Bytes) (a : Nat) (w : BitVec 32) (h : a + 4 ≤ m.length) :
    ∃ m', str m a w = some m' ∧ BUpd m m' a 4 (Xoodoo.byteOf w) := by
  obtain ⟨m', h1, h2⟩ := setAt_bupd m (Xoodoo.bytesOfWord w) a (by rw [Xoodoo.length_bytesOfWord]; exact h)
  rw [Xoodoo.length_bytesOfWord] at h2
  exact ⟨m', h1, h2.congr fun k hk => Simd32.getD_bytesOfWord _ _ hk⟩

/-- Two `ldr`. -/
theorem ldr2 (m : Bytes) (a : Nat) (h : a + 8 ≤ m.length) :
    ∃ x y, ldr m a = some x ∧ ldr m (a + 4) = some y ∧ (∀ k < 4, Xoodoo.byteOf x k = m.getD (a + k) 0) ∧
      ∀ k < 4, Xoodoo.byteOf y k = m.getD (a + 4 + k) 0 := by
  obtain ⟨x, h1, h2⟩ := ldr_ok m a (by omega)
  obtain ⟨y, h3, h4⟩ := ldr_ok m (a + 4) (by omega)
  exact ⟨x, y, h1, h3, h2, h4⟩

/-- Two `str`. -/
theorem str2 (m : Bytes) (a : Nat) (x y : BitVec 32) (h : a + 8 ≤ m.length) {f : Nat → Byte}
    (hx : ∀ k < 4, Xoodoo.byteOf x k = f k) (hy : ∀ k < 4, Xoodoo.byteOf y k = f (4 + k)) :
    ∃ m1 m', str m a x = some m1 ∧ str m1 (a + 4) y = some m' ∧ BUpd m m' a 8 f := by
  obtain ⟨m1, h1, h2⟩ := str_ok m a x (by omega)
  obtain ⟨m2, h3, h4⟩ := str_ok m1 (a + 4) y (by rw [h2.len]; omega)
  refine ⟨m1, m2, h1, h3, h4.len.trans h2.len, fun q => ?_⟩
  rw [h4.byte, h2.byte]
  by_cases c1 : a + 4 ≤ q ∧ q < a + 4 + 4
  · rw [if_pos c1, if_pos (by omega), hy _ (by omega)]
    congr 1; omega
  · rw [if_neg c1]
    by_cases c2 : a ≤ q ∧ q < a + 4
    · rw [if_pos c2, if_pos (by omega), hx _ (by omega)]
    · rw [if_neg c2, if_neg (by omega)]

/-- Changes inside a lane of a state. -/
theorem BUpd.upd {i : Nat} {m m' : Bytes} {a n : Nat} {f : Nat → Byte} {g : Nat → Byte → Byte} (hi : i < 2) (h : BUpd m m' (pos 2 i a) n f)
    (h8 : a % 8 + n ≤ 8) (e : ∀ j < n, f j = g (a + j) (m.getD (pos 2 i a + j) 0)) : Upd 2 i m m' a (a + n) g := by
  refine ⟨h.len, fun k hk j => ?_⟩
  rw [h.byte]
  by_cases c : k = i ∧ a ≤ j ∧ j < a + n
  · have p : pos 2 k j = pos 2 i a + (j - a) := by unfold pos; omega
    rw [if_pos c, if_pos (by omega), p, e _ (by omega), show pos 2 i a + (j - a) - pos 2 i a = j - a by omega,
      show a + (j - a) = j by omega]
  · rw [if_neg c, if_neg]
    unfold pos
    omega

/-! ### The loops -/

theorem countLoop_inv {σ : Type} (body : σ → Option σ) (P : Nat → σ → Prop) (d e : Nat)
    (hf : ∀ p s, p + d ≤ e → P p s → ∃ s', body s = some s' ∧ P (p + d) s') :
    ∀ (fuel n p : Nat) (s : σ), 1 ≤ n → n < 2 ^ 32 → n ≤ fuel → p + d * n ≤ e → P p s →
      ∃ s', countLoop body fuel n s = some s' ∧ P (p + d * n) s' := by
  intro fuel
  induction fuel with
  | zero => intro n p s h1 _ h2; omega
  | succ fuel ih =>
    intro n p s h1 h32 h2 h3 h
    obtain ⟨n, rfl⟩ : ∃ k, n = k + 1 := ⟨n - 1, by omega⟩
    rw [Nat.mul_succ] at h3 ⊢
    obtain ⟨s1, e1, p1⟩ := hf p s (by omega) h
    rw [countLoop, e1]
    simp only [Option.bind_eq_bind, Option.bind_some]
    rw [sub32_eq (by omega) h32, Nat.add_sub_cancel]
    by_cases hn : n = 0
    · subst hn
      rw [if_neg (by omega)]
      exact ⟨s1, rfl, by simpa using p1⟩
    · rw [if_pos hn]
      obtain ⟨s2, e2, p2⟩ := ih n (p + d) s1 (by omega) (by omega) (by omega) (by omega) p1
      exact ⟨s2, e2, by rw [Nat.add_comm (d * n), ← Nat.add_assoc]; exact p2⟩

section

variable {σ : Type} {lane byte : σ → Option σ} {skip : σ → σ} {i off len : Nat} {D : Nat → Nat → σ → Prop}

/-- What the bodies of the loops do; `D j r s`: `j` bytes are done and `r0` is `r`. -/
structure Steps (lane byte : σ → Option σ) (i off len : Nat) (D : Nat → Nat → σ → Prop) : Prop where
  byte : ∀ j s, j < len → D j (pos 2 i (off + j)) s → ∃ s', byte s = some s' ∧ D (j + 1) (pos 2 i (off + j) + 1) s'
  lane : ∀ j s, j + 8 ≤ len → (off + j) % 8 = 0 → D j (pos 2 i (off + j)) s →
    ∃ s', lane s = some s' ∧ D (j + 8) (pos 2 i (off + j) + 16) s'

theorem lastBytes_ok (H : Steps lane byte i off len D) : ∀ (fuel n j : Nat) (s : σ), 1 ≤ n → n ≤ fuel → (off + j) % 8 + n < 8 → j + n = len →
    D j (pos 2 i (off + j)) s → ∃ s' r, countLoop byte fuel n s = some s' ∧ D len r s' := by
  intro fuel
  induction fuel with
  | zero => intro n j s h1 h2; omega
  | succ fuel ih =>
    intro n j s h1 h2 h8 hn h
    obtain ⟨s1, e1, d1⟩ := H.byte j s (by omega) h
    rw [countLoop, e1]
    simp only [Option.bind_eq_bind, Option.bind_some]
    rw [sub32_eq (by omega) (by omega)]
    by_cases hc : n - 1 = 0
    · rw [if_neg (by omega)]
      exact ⟨s1, _, rfl, by rw [← show j + 1 = len by omega]; exact d1⟩
    · rw [if_pos hc]
      refine ih (n - 1) (j + 1) s1 (by omega) (by omega) (by omega) (by omega) ?_
      rwa [show pos 2 i (off + (j + 1)) = pos 2 i (off + j) + 1 by unfold pos; omega]

theorem fromLanes_ok (H : Steps lane byte i off len D) (h32 : len < 2 ^ 32) (r1 j : Nat) (s : σ) (h8 : (off + j) % 8 = 0) (hj : j + r1 = len)
    (h : D j (pos 2 i (off + j)) s) : ∃ s' r, fromLanes lane byte r1 s = some s' ∧ D len r s' := by
  have h1 : ∃ s1, (if r1 / 8 = 0 then some s else countLoop lane (2 ^ 32) (r1 / 8) s) = some s1 ∧
      D (j + 8 * (r1 / 8)) (pos 2 i (off + (j + 8 * (r1 / 8)))) s1 := by
    by_cases hc : r1 / 8 = 0
    · rw [if_pos hc, hc]; exact ⟨s, rfl, h⟩
    · rw [if_neg hc]
      obtain ⟨s1, e1, d1, _⟩ := countLoop_inv lane (fun p s => D p (pos 2 i (off + p)) s ∧ (off + p) % 8 = 0) 8 len
        (fun p s hp hs => by
          obtain ⟨s', e, d⟩ := H.lane p s hp hs.2 hs.1
          refine ⟨s', e, ?_, by omega⟩
          rwa [show pos 2 i (off + (p + 8)) = pos 2 i (off + p) + 16 by unfold pos; omega])
        (2 ^ 32) (r1 / 8) j s (by omega) (by omega) (by omega) (by omega) ⟨h, h8⟩
      exact ⟨s1, e1, d1⟩
  obtain ⟨s1, e1, d1⟩ := h1
  have ef : fromLanes lane byte r1 s = (if r1 / 8 = 0 then some s else countLoop lane (2 ^ 32) (r1 / 8) s).bind fun s =>
      if r1 % 8 = 0 then some s else countLoop byte (2 ^ 32) (r1 % 8) s := by
    unfold fromLanes
    by_cases c : r1 / 8 = 0
    · simp only [if_pos c]; rfl
    · simp only [if_neg c]; rfl
  rw [ef, e1, Option.bind_some]
  by_cases hc : r1 % 8 = 0
  · rw [if_pos hc]
    exact ⟨s1, _, rfl, by rw [show len = j + 8 * (r1 / 8) by omega]; exact d1⟩
  · rw [if_neg hc]
    exact lastBytes_ok H (2 ^ 32) (r1 % 8) (j + 8 * (r1 / 8)) s1 (by omega) (by omega) (by omega) (by omega) d1

theorem firstLoop_ok (H : Steps lane byte i off len D) (hs : ∀ j r s, D j r s → D j (r + 8) (skip s)) (h32 : len < 2 ^ 32) :
    ∀ (fuel r3 r1 j : Nat) (s : σ), r3 ≤ fuel → 1 ≤ r3 → r3 + (off + j) % 8 = 8 → 1 ≤ r1 → j + r1 = len → D j (pos 2 i (off + j)) s →
      ∃ s' r1', firstLoop byte skip fuel r3 r1 s = some (s', r1') ∧ ((r1' = 0 ∧ ∃ r, D len r s') ∨
        (r1' ≠ 0 ∧ ∃ j', j' + r1' = len ∧ (off + j') % 8 = 0 ∧ D j' (pos 2 i (off + j')) s')) := by
  intro fuel
  induction fuel with
  | zero => intro r3 r1 j s h1 h2; omega
  | succ fuel ih =>
    intro r3 r1 j s h1 h2 h8 h3 hj h
    obtain ⟨s1, e1, d1⟩ := H.byte j s (by omega) h
    rw [firstLoop, e1]
    simp only [Option.bind_eq_bind, Option.bind_some]
    rw [sub32_eq (a := r1) (by omega) (by omega), sub32_eq (a := r3) (by omega) (by omega)]
    by_cases c1 : r1 - 1 = 0
    · rw [if_pos c1]
      exact ⟨s1, 0, rfl, .inl ⟨rfl, _, by rw [← show j + 1 = len by omega]; exact d1⟩⟩
    · rw [if_neg c1]
      by_cases c3 : r3 - 1 = 0
      · rw [if_neg (by omega)]
        refine ⟨skip s1, r1 - 1, rfl, .inr ⟨c1, j + 1, by omega, by omega, ?_⟩⟩
        rw [show pos 2 i (off + (j + 1)) = pos 2 i (off + j) + 1 + 8 by unfold pos; omega]
        exact hs _ _ _ d1
      · rw [if_pos c3]
        refine ih (r3 - 1) (r1 - 1) (j + 1) s1 (by omega) (by omega) (by omega) (by omega) (by omega) ?_
        rwa [show pos 2 i (off + (j + 1)) = pos 2 i (off + j) + 1 by unfold pos; omega]

theorem walk_ok (H : Steps lane byte i off len D) (hs : ∀ j r s, D j r s → D j (r + 8) (skip s)) (h32 : len < 2 ^ 32) (start : Nat → σ)
    (h0 : ∀ r, D 0 r (start r)) : ∃ s' r, walk lane byte skip start i off len = some s' ∧ D len r s' := by
  unfold walk
  by_cases hl : len = 0
  · subst hl
    rw [if_pos rfl]
    exact ⟨_, _, rfl, h0 _⟩
  · rw [if_neg hl]
    by_cases h8 : off % 8 = 0
    · rw [if_pos h8]
      refine fromLanes_ok H h32 len 0 _ (by omega) (by omega) ?_
      rw [show 8 * i + off / 8 * 16 = pos 2 i (off + 0) by unfold pos; omega]
      exact h0 _
    · rw [if_neg h8]
      obtain ⟨s1, r1, e1, h1⟩ := firstLoop_ok H hs h32 (2 ^ 32) (8 - off % 8) len 0 (start (8 * i + off / 8 * 16 + off % 8)) (by omega)
        (by omega) (by omega) (by omega) (by omega) (by
          rw [show 8 * i + off / 8 * 16 + off % 8 = pos 2 i (off + 0) by unfold pos; omega]
          exact h0 _)
      simp only [Option.bind_eq_bind]
      rw [e1, Option.bind_some]
      simp only
      rcases h1 with ⟨rfl, r, d⟩ | ⟨hr, j, hj, h8', d⟩
      · rw [if_pos rfl]; exact ⟨s1, r, rfl, d⟩
      · rw [if_neg hr]; exact fromLanes_ok H h32 r1 j s1 h8' hj d

end

/-! ### The functions on bytes -/

variable {i : Nat}

theorem pos_lt (hi : i < 2) {a : Nat} (ha : a < 200) : pos 2 i a < 400 := by unfold pos; omega

theorem pos_lane_lt (hi : i < 2) {a : Nat} (ha : a + 8 ≤ 200) (h8 : a % 8 = 0) : pos 2 i a + 8 ≤ 400 := by unfold pos; omega

theorem pos_add {a k : Nat} (h8 : a % 8 = 0) (hk : k < 8) : pos 2 i (a + k) = pos 2 i a + k := by unfold pos; omega

/-- Two such changes of a memory are the same. -/
theorem upd_unique {mem m1 m2 : Bytes} (hm : mem.length = 400) {a b : Nat} {g : Nat → Byte → Byte} (h1 : Upd 2 i mem m1 a b g)
    (h2 : Upd 2 i mem m2 a b g) : m1 = m2 := by
  apply Simd.bytes_ext (by rw [h1.len, h2.len])
  intro q _
  have e : q = pos 2 (q / 8 % 2) (q / 16 * 8 + q % 8) := by unfold pos; omega
  rw [e, h1.byte _ (by omega), h2.byte _ (by omega)]

theorem addByte_upd (hi : i < 2) {mem : Bytes} (hm : mem.length = 400) (b : Byte) (off : Nat) (ho : off < 200) :
    ∃ mem', addByte mem i b off = some mem' ∧ Upd 2 i mem mem' off (off + 1) (fun _ x => x ^^^ b) := by
  have e : 8 * i + off / 8 * 16 + off % 8 = pos 2 i off := by unfold pos; omega
  have hp := pos_lt hi ho
  obtain ⟨m', h1, h2⟩ := strb_bupd mem (pos 2 i off) (mem.getD (pos 2 i off) 0 ^^^ b) (by omega)
  refine ⟨m', ?_, h2.upd hi (by omega) fun j hj => ?_⟩
  · unfold addByte
    simp only [e, Option.bind_eq_bind]
    rw [ldrb_ok _ _ (by omega), Option.bind_some, h1]
  · obtain rfl : j = 0 := by omega
    rfl

theorem add_steps (hi : i < 2) {mem : Bytes} (hm : mem.length = 400) (data : Bytes) (off : Nat) (hd : off + data.length ≤ 200) :
    Steps (addLane data) (addOne data) i off data.length (fun j r (s : Wr) => s.r0 = r ∧ s.r1 = j ∧
      Upd 2 i mem s.st off (off + j) (fun j x => x ^^^ data.getD (j - off) 0)) := by
  constructor
  · rintro j ⟨st, r0, r1⟩ hj ⟨e0, ej, u⟩
    change r1 = j at ej
    change r0 = _ at e0
    subst ej; subst e0
    have hp := pos_lt hi (a := off + r1) (by omega)
    have hl : st.length = 400 := u.len.trans hm
    obtain ⟨m', h1, h2⟩ := strb_bupd st (pos 2 i (off + r1)) (st.getD (pos 2 i (off + r1)) 0 ^^^ data.getD r1 0) (by omega)
    refine ⟨⟨m', pos 2 i (off + r1) + 1, r1 + 1⟩, ?_, rfl, rfl, u.trans (h2.upd hi (by omega) fun k hk => ?_) (by omega) (by omega)⟩
    · unfold addOne
      simp only [Option.bind_eq_bind]
      rw [ldrb_ok _ _ (by omega), Option.bind_some, ldrb_ok _ _ hj, Option.bind_some, h1, Option.bind_some]
    · obtain rfl : k = 0 := by omega
      rw [Nat.add_zero, Nat.add_zero, show off + r1 - off = r1 by omega]
  · rintro j ⟨st, r0, r1⟩ hj h8 ⟨e0, ej, u⟩
    change r1 = j at ej
    change r0 = _ at e0
    subst ej; subst e0
    have hp := pos_lane_lt hi (a := off + r1) (by omega) h8
    have hl : st.length = 400 := u.len.trans hm
    obtain ⟨x, y, x1, x2, x3, x4⟩ := ldr2 st (pos 2 i (off + r1)) (by omega)
    obtain ⟨z, t, z1, z2, z3, z4⟩ := ldr2 data r1 (by omega)
    obtain ⟨m1, m', e1, e2, h2⟩ := str2 st (pos 2 i (off + r1)) (x ^^^ z) (y ^^^ t) (by omega)
      (f := fun k => st.getD (pos 2 i (off + r1) + k) 0 ^^^ data.getD (r1 + k) 0)
      (fun k hk => by rw [Xoodoo.byteOf_xor, x3 k hk, z3 k hk])
      (fun k hk => by rw [Xoodoo.byteOf_xor, x4 k hk, z4 k hk, Nat.add_assoc, Nat.add_assoc])
    refine ⟨⟨m', pos 2 i (off + r1) + 4 + 12, r1 + 4 + 4⟩, ?_, rfl, rfl, u.trans (h2.upd hi (by omega) fun k hk => ?_) (by omega) (by omega)⟩
    · unfold addLane
      simp only [Option.bind_eq_bind]
      rw [x1, Option.bind_some, x2, Option.bind_some, z1, Option.bind_some, z2, Option.bind_some, e1, Option.bind_some, e2, Option.bind_some]
    · rw [show off + r1 + k - off = r1 + k by omega]

theorem addBytes_upd (hi : i < 2) {mem : Bytes} (hm : mem.length = 400) (data : Bytes) (off : Nat) (hd : off + data.length ≤ 200) :
    ∃ mem', addBytes mem i data off = some mem' ∧ Upd 2 i mem mem' off (off + data.length) (fun j x => x ^^^ data.getD (j - off) 0) := by
  obtain ⟨s, r, e, _, _, u⟩ := walk_ok (add_steps hi hm data off hd) (skip := fun s => { s with r0 := s.r0 + 8 })
    (fun j r s h => ⟨by rw [← h.1], h.2⟩) (by omega) (fun r0 => ⟨mem, r0, 0⟩) (fun r => ⟨rfl, rfl, Upd.refl _ _ _⟩)
  exact ⟨s.st, by unfold addBytes; rw [e]; rfl, u⟩

theorem overwrite_steps (hi : i < 2) {mem : Bytes} (hm : mem.length = 400) (data : Bytes) (off : Nat) (hd : off + data.length ≤ 200) :
    Steps (overwriteLane data) (overwriteOne data) i off data.length (fun j r (s : Wr) => s.r0 = r ∧ s.r1 = j ∧
      Upd 2 i mem s.st off (off + j) (fun j _ => data.getD (j - off) 0)) := by
  constructor
  · rintro j ⟨st, r0, r1⟩ hj ⟨e0, ej, u⟩
    change r1 = j at ej
    change r0 = _ at e0
    subst ej; subst e0
    have hp := pos_lt hi (a := off + r1) (by omega)
    have hl : st.length = 400 := u.len.trans hm
    obtain ⟨m', h1, h2⟩ := strb_bupd st (pos 2 i (off + r1)) (data.getD r1 0) (by omega)
    refine ⟨⟨m', pos 2 i (off + r1) + 1, r1 + 1⟩, ?_, rfl, rfl, u.trans (h2.upd hi (by omega) fun k hk => ?_) (by omega) (by omega)⟩
    · unfold overwriteOne
      simp only [Option.bind_eq_bind]
      rw [ldrb_ok _ _ hj, Option.bind_some, h1, Option.bind_some]
    · obtain rfl : k = 0 := by omega
      rw [Nat.add_zero, show off + r1 - off = r1 by omega]
  · rintro j ⟨st, r0, r1⟩ hj h8 ⟨e0, ej, u⟩
    change r1 = j at ej
    change r0 = _ at e0
    subst ej; subst e0
    have hp := pos_lane_lt hi (a := off + r1) (by omega) h8
    have hl : st.length = 400 := u.len.trans hm
    obtain ⟨z, t, z1, z2, z3, z4⟩ := ldr2 data r1 (by omega)
    obtain ⟨m1, m', e1, e2, h2⟩ := str2 st (pos 2 i (off + r1)) z t (by omega) (f := fun k => data.getD (r1 + k) 0)
      (fun k hk => by rw [z3 k hk]) (fun k hk => by rw [z4 k hk, Nat.add_assoc])
    refine ⟨⟨m', pos 2 i (off + r1) + 4 + 12, r1 + 4 + 4⟩, ?_, rfl, rfl, u.trans (h2.upd hi (by omega) fun k hk => ?_) (by omega) (by omega)⟩
    · unfold overwriteLane
      simp only [Option.bind_eq_bind]
      rw [z1, Option.bind_some, z2, Option.bind_some, e1, Option.bind_some, e2, Option.bind_some]
    · rw [show off + r1 + k - off = r1 + k by omega]

theorem overwriteBytes_upd (hi : i < 2) {mem : Bytes} (hm : mem.length = 400) (data : Bytes) (off : Nat) (hd : off + data.length ≤ 200) :
    ∃ mem', overwriteBytes mem i data off = some mem' ∧ Upd 2 i mem mem' off (off + data.length) (fun j _ => data.getD (j - off) 0) := by
  obtain ⟨s, r, e, _, _, u⟩ := walk_ok (overwrite_steps hi hm data off hd) (skip := fun s => { s with r0 := s.r0 + 8 })
    (fun j r s h => ⟨by rw [← h.1], h.2⟩) (by omega) (fun r0 => ⟨mem, r0, 0⟩) (fun r => ⟨rfl, rfl, Upd.refl _ _ _⟩)
  exact ⟨s.st, by unfold overwriteBytes; rw [e]; rfl, u⟩

/-- `vstm` of one register. -/
theorem vstm_ok (base : Nat) (m : Bytes) (c : Nat) (w : Lane) (hb : base % 4 = 0) (h : 8 * c + 8 ≤ m.length) :
    ∃ m', vstm base m (8 * c) w = some m' ∧ Stored m m' c 1 (fun _ => w) := by
  obtain ⟨m', h1, h2⟩ := Simd.storeWord_ok m c w h
  exact ⟨m', by unfold vstm; rw [if_pos (by omega), h1], h2⟩

/-- `vldm` of one register. -/
theorem vldm_ok (base : Nat) (m : Bytes) (c : Nat) (hb : base % 4 = 0) (h : 8 * c + 8 ≤ m.length) : vldm base m (8 * c) = some (wd m c) := by
  unfold vldm; rw [if_pos (by omega), Simd.loadWord_ok _ _ h]

theorem zero_steps (hi : i < 2) {mem : Bytes} (hm : mem.length = 400) (n : Nat) (hn : n ≤ 200) :
    Steps zeroLane zeroByte i 0 n (fun j r s => s.2 = r ∧ Upd 2 i mem s.1 0 j (fun _ _ => 0)) := by
  constructor
  · rintro j ⟨st, r0⟩ hj ⟨rfl, u⟩
    have hp := pos_lt hi (a := 0 + j) (by omega)
    have hl : st.length = 400 := u.len.trans hm
    obtain ⟨m', h1, h2⟩ := strb_bupd st (pos 2 i (0 + j)) 0 (by omega)
    have u2 : Upd 2 i st m' (0 + j) (0 + j + 1) (fun _ _ => 0) := h2.upd hi (by omega) fun k hk => rfl
    rw [Nat.zero_add] at u2
    refine ⟨(m', pos 2 i (0 + j) + 1), ?_, rfl, u.trans u2 (by omega) (by omega)⟩
    unfold zeroByte
    simp only [Option.bind_eq_bind]
    rw [h1, Option.bind_some]
  · rintro j ⟨st, r0⟩ hj h8 ⟨rfl, u⟩
    have hp := pos_lane_lt hi (a := 0 + j) (by omega) h8
    have hl : st.length = 400 := u.len.trans hm
    have e : pos 2 i (0 + j) = 8 * (j / 8 * 2 + i) := by unfold pos; omega
    obtain ⟨m', h1, h2⟩ := vstm_ok 0 st (j / 8 * 2 + i) 0 rfl (by omega)
    have b2 : BUpd st m' (pos 2 i (0 + j)) 8 (fun _ => 0) := by
      refine ⟨h2.len, fun q => ?_⟩
      rw [h2.byte]
      by_cases c : pos 2 i (0 + j) ≤ q ∧ q < pos 2 i (0 + j) + 8
      · rw [if_pos c, if_pos (by omega)]; simp [KeccakP1600.byteOf]
      · rw [if_neg c, if_neg (by omega)]
    have u2 : Upd 2 i st m' (0 + j) (0 + j + 8) (fun _ _ => 0) := b2.upd hi (by omega) fun k hk => rfl
    rw [Nat.zero_add] at u2
    refine ⟨(m', pos 2 i (0 + j) + 8 + 8), ?_, rfl, u.trans u2 (by omega) (by omega)⟩
    unfold zeroLane
    simp only [Option.bind_eq_bind]
    rw [e, h1, Option.bind_some]

theorem overwriteWithZeroes_upd (hi : i < 2) {mem : Bytes} (hm : mem.length = 400) (n : Nat) (hn : n ≤ 200) :
    ∃ mem', overwriteWithZeroes mem i n = some mem' ∧ Upd 2 i mem mem' 0 n (fun _ _ => 0) := by
  obtain ⟨s, r, e, _, u⟩ := fromLanes_ok (zero_steps hi hm n hn) (by omega) n 0 (mem, 8 * i) rfl (by omega)
    ⟨by unfold pos; omega, Upd.refl _ _ _⟩
  exact ⟨s.1, by unfold overwriteWithZeroes; rw [e]; rfl, u⟩

theorem bytes_two (x y : BitVec 32) {h : Nat → Byte} (a : Nat) (hx : ∀ k < 4, Xoodoo.byteOf x k = h (a + k))
    (hy : ∀ k < 4, Xoodoo.byteOf y k = h (a + 4 + k)) : Xoodoo.bytesOfWord x ++ Xoodoo.bytesOfWord y = bytesFrom h a 8 := by
  rw [show (8 : Nat) = 4 + 4 from rfl, ← Interleaved.bytesFrom_append]
  congr 1
  · exact Interleaved.bytesFrom_ext (Xoodoo.length_bytesOfWord _) fun j hj => by rw [Simd32.getD_bytesOfWord _ _ hj, hx j hj]
  · exact Interleaved.bytesFrom_ext (Xoodoo.length_bytesOfWord _) fun j hj => by rw [Simd32.getD_bytesOfWord _ _ hj, hy j hj]

theorem extract_steps (hi : i < 2) {mem : Bytes} (hm : mem.length = 400) (off len : Nat) (hd : off + len ≤ 200) :
    Steps (extractLane mem) (extractOne mem) i off len (fun j r (s : Ex) => s.r0 = r ∧
      s.out = bytesFrom (fun j => mem.getD (pos 2 i j) 0) off j) := by
  constructor
  · rintro j ⟨out, r0⟩ hj ⟨rfl, rfl⟩
    have hp := pos_lt hi (a := off + j) (by omega)
    refine ⟨⟨bytesFrom (fun j => mem.getD (pos 2 i j) 0) off j ++ [mem.getD (pos 2 i (off + j)) 0], pos 2 i (off + j) + 1⟩, ?_, rfl, ?_⟩
    · unfold extractOne
      simp only [Option.bind_eq_bind]
      rw [ldrb_ok _ _ (by omega), Option.bind_some]
    · exact Interleaved.bytesFrom_append (fun j => mem.getD (pos 2 i j) 0) off j 1
  · rintro j ⟨out, r0⟩ hj h8 ⟨rfl, rfl⟩
    have hp := pos_lane_lt hi (a := off + j) (by omega) h8
    obtain ⟨x, y, x1, x2, x3, x4⟩ := ldr2 mem (pos 2 i (off + j)) (by omega)
    refine ⟨⟨bytesFrom (fun j => mem.getD (pos 2 i j) 0) off j ++ Xoodoo.bytesOfWord x ++ Xoodoo.bytesOfWord y, pos 2 i (off + j) + 4 + 12⟩, ?_, rfl, ?_⟩
    · unfold extractLane
      simp only [Option.bind_eq_bind]
      rw [x1, Option.bind_some, x2, Option.bind_some]
    · simp only
      rw [List.append_assoc, bytes_two x y (h := fun j => mem.getD (pos 2 i j) 0) (off + j) (fun k hk => by rw [x3 k hk, pos_add h8 (by omega)])
        (fun k hk => by rw [x4 k hk, Nat.add_assoc (off + j), pos_add h8 (by omega), Nat.add_assoc]), Interleaved.bytesFrom_append]

theorem extractBytes_eq (hi : i < 2) {mem : Bytes} (hm : mem.length = 400) (off len : Nat) (hd : off + len ≤ 200) :
    extractBytes mem i off len = some (bytesFrom (fun j => mem.getD (pos 2 i j) 0) off len) := by
  obtain ⟨s, r, e, _, u⟩ := walk_ok (extract_steps hi hm off len hd) (skip := fun s => { s with r0 := s.r0 + 8 })
    (fun j r s h => ⟨by rw [← h.1], h.2⟩) (by omega) (fun r0 => ⟨[], r0⟩) (fun r => ⟨rfl, rfl⟩)
  rw [← u]; unfold extractBytes; rw [e]; rfl

theorem extractAdd_steps (hi : i < 2) {mem : Bytes} (hm : mem.length = 400) (input : Bytes) (off : Nat) (hd : off + input.length ≤ 200) :
    Steps (extractAddLane mem input) (extractAddOne mem input) i off input.length (fun j r (s : Ea) => s.r0 = r ∧ s.r1 = j ∧
      s.out = bytesFrom (fun j => input.getD (j - off) 0 ^^^ mem.getD (pos 2 i j) 0) off j) := by
  constructor
  · rintro j ⟨out, r0, r1⟩ hj ⟨e0, ej, eo⟩
    change r1 = j at ej
    change r0 = _ at e0
    change out = _ at eo
    subst ej; subst e0; subst eo
    have hp := pos_lt hi (a := off + r1) (by omega)
    refine ⟨⟨bytesFrom (fun j => input.getD (j - off) 0 ^^^ mem.getD (pos 2 i j) 0) off r1 ++ [mem.getD (pos 2 i (off + r1)) 0 ^^^ input.getD r1 0], pos 2 i (off + r1) + 1, r1 + 1⟩, ?_, rfl, rfl, ?_⟩
    · unfold extractAddOne
      simp only [Option.bind_eq_bind]
      rw [ldrb_ok _ _ (by omega), Option.bind_some, ldrb_ok _ _ hj, Option.bind_some]
    · rw [← Interleaved.bytesFrom_append]
      simp only [bytesFrom, List.range'_one, List.map_cons, List.map_nil]
      rw [BitVec.xor_comm, show off + r1 - off = r1 by omega]
  · rintro j ⟨out, r0, r1⟩ hj h8 ⟨e0, ej, eo⟩
    change r1 = j at ej
    change r0 = _ at e0
    change out = _ at eo
    subst ej; subst e0; subst eo
    have hp := pos_lane_lt hi (a := off + r1) (by omega) h8
    obtain ⟨x, y, x1, x2, x3, x4⟩ := ldr2 mem (pos 2 i (off + r1)) (by omega)
    obtain ⟨z, t, z1, z2, z3, z4⟩ := ldr2 input r1 (by omega)
    refine ⟨⟨bytesFrom (fun j => input.getD (j - off) 0 ^^^ mem.getD (pos 2 i j) 0) off r1 ++ Xoodoo.bytesOfWord (x ^^^ z) ++ Xoodoo.bytesOfWord (y ^^^ t), pos 2 i (off + r1) + 4 + 12, r1 + 4 + 4⟩, ?_, rfl, rfl, ?_⟩
    · unfold extractAddLane
      simp only [Option.bind_eq_bind]
      rw [x1, Option.bind_some, x2, Option.bind_some, z1, Option.bind_some, z2, Option.bind_some]
    · simp only
      rw [List.append_assoc, bytes_two (x ^^^ z) (y ^^^ t) (h := fun j => input.getD (j - off) 0 ^^^ mem.getD (pos 2 i j) 0) (off + r1)
        (fun k hk => by
          rw [Xoodoo.byteOf_xor, x3 k hk, z3 k hk, pos_add h8 (by omega), BitVec.xor_comm, show off + r1 + k - off = r1 + k by omega])
        (fun k hk => by
          rw [Xoodoo.byteOf_xor, x4 k hk, z4 k hk, Nat.add_assoc (off + r1), pos_add h8 (by omega), BitVec.xor_comm,
            show off + r1 + (4 + k) - off = r1 + 4 + k by omega, Nat.add_assoc (pos 2 i (off + r1))]), Interleaved.bytesFrom_append]

theorem extractAndAddBytes_eq (hi : i < 2) {mem : Bytes} (hm : mem.length = 400) (input : Bytes) (off : Nat) (hd : off + input.length ≤ 200) :
    extractAndAddBytes mem i input off = some (bytesFrom (fun j => input.getD (j - off) 0 ^^^ mem.getD (pos 2 i j) 0) off input.length) := by
  obtain ⟨s, r, e, _, _, u⟩ := walk_ok (extractAdd_steps hi hm input off hd) (skip := fun s => { s with r0 := s.r0 + 8 })
    (fun j r s h => ⟨by rw [← h.1], h.2⟩) (by omega) (fun r0 => ⟨[], r0, 0⟩) (fun r => ⟨rfl, rfl, rfl⟩)
  rw [← u]; unfold extractAndAddBytes; rw [e]; rfl

/-! ### Initialization -/

theorem zero_step {m : Bytes} (a n : Nat) (hm : m.length = 400) (h : a + n ≤ 400) (hz : ∀ q < a, m.getD q 0 = 0) :
    ∃ m', SnP.overwriteBytes m (Bytes.zeros n) a = some m' ∧ m'.length = 400 ∧ ∀ q < a + n, m'.getD q 0 = 0 := by
  obtain ⟨m', h1, h2⟩ := setAt_bupd m (Bytes.zeros n) a (by rw [Bytes.length_zeros]; omega)
  refine ⟨m', h1, h2.len.trans hm, fun q hq => ?_⟩
  rw [h2.byte, Bytes.length_zeros, Interleaved.getD_zeros]
  split
  · rfl
  · exact hz q (by omega)

theorem initAll_eq {mem : Bytes} (hm : mem.length = 400) : initAll mem = some (Bytes.zeros 400) := by
  obtain ⟨m1, e1, l1, z1⟩ := zero_step 0 64 hm (by omega) (fun q hq => by omega)
  obtain ⟨m2, e2, l2, z2⟩ := zero_step 64 64 l1 (by omega) z1
  obtain ⟨m3, e3, l3, z3⟩ := zero_step 128 64 l2 (by omega) z2
  obtain ⟨m4, e4, l4, z4⟩ := zero_step 192 64 l3 (by omega) z3
  obtain ⟨m5, e5, l5, z5⟩ := zero_step 256 64 l4 (by omega) z4
  obtain ⟨m6, e6, l6, z6⟩ := zero_step 320 64 l5 (by omega) z5
  obtain ⟨m7, e7, l7, z7⟩ := zero_step 384 16 l6 (by omega) z6
  have e : m7 = Bytes.zeros 400 := by
    apply Simd.bytes_ext (by rw [l7, Bytes.length_zeros])
    intro q hq
    rw [z7 q (by omega), Interleaved.getD_zeros]
  unfold initAll
  simp only [Option.bind_eq_bind]
  rw [e1, Option.bind_some, e2, Option.bind_some, e3, Option.bind_some, e4, Option.bind_some, e5, Option.bind_some, e6, Option.bind_some, e7, e]

end Times2Neon
