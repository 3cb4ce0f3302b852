import Verif.Proofs.XoodooTimes4Neon

/-!
The functions on bytes of the NEON implementation of four instances of Xoodoo.
-/

namespace XoodooTimes4Neon

open Xoodoo (Lane wordOfBytes bytesOfWord byteOf)
open Simd32
open Interleaved32 (Upd)
open XoodooArm (add32 sub32 ldrb strb)

theorem loop_inv {σ : Type} (body : σ → Option σ) (I : Nat → σ → Prop) (n : Nat)
    (hf : ∀ p s, p < n → I p s → ∃ s', body s = some s' ∧ I (p + 1) s') :
    ∀ (fuel m p : Nat) (s : σ), m < fuel → p + m = n → I p s → ∃ s', loop body fuel m s = some s' ∧ I n s' := by
  intro fuel
  induction fuel with
  | zero => intro m p s h; omega
  | succ fuel ih =>
    intro m p s hm hp h
    rw [loop]
    by_cases h0 : m < 1
    · rw [if_pos h0]
      obtain rfl : p = n := by omega
      exact ⟨s, rfl, h⟩
    · rw [if_neg h0]
      obtain ⟨s1, e1, h1⟩ := hf p s (by omega) h
      obtain ⟨s2, e2, h2⟩ := ih (m - 1) (p + 1) s1 (by omega) (by omega) h1
      refine ⟨s2, ?_, h2⟩
      simp only [Option.bind_eq_bind]
      rw [e1, Option.bind_some, e2]

theorem start_eq {i off : Nat} (hi : i < 4) (ho : off ≤ 48) : start i off = pos 4 i off := by
  simp only [start, add32, sub32, pos]
  omega

theorem skip_eq {i j : Nat} (hi : i < 4) : skip (pos 4 i j + 1) = pos 4 i (j + 1) := by
  unfold skip pos
  split <;> omega

theorem pos_lt {mem : Bytes} (hm : mem.length = 48 * 4) {i j : Nat} (hi : i < 4) (hj : j < 48) : pos 4 i j < mem.length := by
  unfold pos; omega

theorem ldrb_ok (buf : Bytes) (a : Nat) (h : a < buf.length) : ldrb buf a = some (buf.getD a 0) := by
  unfold ldrb
  rw [List.getD_eq_getElem?_getD, List.getElem?_eq_getElem h]; rfl

theorem getD_set (buf : Bytes) (a q : Nat) (b : Byte) (h : a < buf.length) : (buf.set a b).getD q 0 = if q = a then b else buf.getD q 0 := by
  rw [List.getD_eq_getElem?_getD, List.getElem?_set]
  by_cases hq : a = q
  · subst hq; simp [h]
  · rw [if_neg hq, if_neg (Ne.symm hq), List.getD_eq_getElem?_getD]

theorem strb_upd {mem : Bytes} (hm : mem.length = 48 * 4) {i j : Nat} (hi : i < 4) (hj : j < 48) (b : Byte) {g : Nat → Byte → Byte}
    (hg : b = g j (mem.getD (pos 4 i j) 0)) :
    ∃ mem', strb mem (pos 4 i j) b = some mem' ∧ Upd 4 i mem mem' j (j + 1) g := by
  have hl := pos_lt hm hi hj
  refine ⟨_, by unfold strb; rw [if_pos hl], by simp, fun k hk j' => ?_⟩
  rw [getD_set _ _ _ _ hl]
  by_cases hc : k = i ∧ j ≤ j' ∧ j' < j + 1
  · obtain ⟨rfl, hc⟩ := hc
    obtain rfl : j' = j := by omega
    rw [if_pos rfl, if_pos ⟨rfl, by omega, by omega⟩, hg]
  · rw [if_neg hc, if_neg]
    intro h
    have := pos_inj hk hi h
    omega

theorem addByte_upd {i : Nat} (hi : i < 4) {mem : Bytes} (hm : mem.length = 48 * 4) (b : Byte) (off : Nat) (ho : off < 48) :
    ∃ mem', addByte mem i b off = some mem' ∧ Upd 4 i mem mem' off (off + 1) (fun _ x => x ^^^ b) := by
  unfold addByte
  rw [start_eq hi (by omega)]
  simp only [Option.bind_eq_bind]
  rw [ldrb_ok _ _ (pos_lt hm hi ho), Option.bind_some]
  exact strb_upd hm hi ho _ rfl

/-- The loops that write to the states. -/
theorem writeLoop {body : Wr → Option Wr} {i : Nat} (hi : i < 4) {mem : Bytes} (hm : mem.length = 48 * 4) (data : Bytes) (off : Nat)
    (hd : off + data.length ≤ 48) (g : Nat → Byte → Byte)
    (hb : ∀ p < data.length, ∀ m : Bytes, m.length = 48 * 4 → ∃ m', body ⟨m, pos 4 i (off + p), p⟩ = some ⟨m', skip (pos 4 i (off + p) + 1), p + 1⟩ ∧
      Upd 4 i m m' (off + p) (off + p + 1) g) :
    ∃ s', loop body (2 ^ 32) data.length ⟨mem, start i off, 0⟩ = some s' ∧ Upd 4 i mem s'.st off (off + data.length) g := by
  obtain ⟨s', e, h1, _⟩ := loop_inv body (fun p s => Upd 4 i mem s.st off (off + p) g ∧ s.r0 = pos 4 i (off + p) ∧ s.r2 = p) data.length
    (fun p s hp h => by
      obtain ⟨st, r0, r2⟩ := s
      obtain ⟨h1, h2, h3⟩ := h
      simp only at h1 h2 h3
      subst h2 h3
      obtain ⟨m', e, u⟩ := hb _ hp st (h1.len.trans hm)
      exact ⟨_, e, h1.trans u (by omega) (by omega), skip_eq hi, rfl⟩) (2 ^ 32) data.length 0 ⟨mem, start i off, 0⟩
    (by omega) (by omega) ⟨Upd.refl _ _ _, start_eq hi (by omega), rfl⟩
  exact ⟨s', e, h1⟩

theorem addBytes_upd {i : Nat} (hi : i < 4) {mem : Bytes} (hm : mem.length = 48 * 4) (data : Bytes) (off : Nat) (hd : off + data.length ≤ 48) :
    ∃ mem', addBytes mem i data off = some mem' ∧ Upd 4 i mem mem' off (off + data.length) (fun j x => x ^^^ data.getD (j - off) 0) := by
  obtain ⟨s', e, u⟩ := writeLoop (body := addOne data) hi hm data off hd (fun j x => x ^^^ data.getD (j - off) 0) (fun p hp m hl => by
    obtain ⟨m', e, u⟩ := strb_upd hl hi (show off + p < 48 by omega) (m.getD (pos 4 i (off + p)) 0 ^^^ data.getD p 0)
      (g := fun j x => x ^^^ data.getD (j - off) 0) (by rw [Nat.add_sub_cancel_left])
    refine ⟨m', ?_, u⟩
    unfold addOne
    simp only [Option.bind_eq_bind]
    rw [ldrb_ok _ _ (pos_lt hl hi (by omega)), Option.bind_some, ldrb_ok _ _ hp, Option.bind_some, e, Option.bind_some])
  exact ⟨s'.st, by unfold addBytes; rw [e]; rfl, u⟩

theorem str_upd {mem : Bytes} (hm : mem.length = 48 * 4) {i p : Nat} (hi : i < 4) (hp : p < 12) (w : Lane) {g : Nat → Byte → Byte}
    (hg : ∀ j x, 4 * p ≤ j → j < 4 * p + 4 → byteOf w (j - 4 * p) = g j x) {r0 : Nat} (hr : r0 = 4 * i + 16 * p) :
    ∃ mem', str 0 mem r0 w = some mem' ∧ Upd 4 i mem mem' (4 * p) (4 * (p + 1)) g := by
  obtain ⟨mem', e, u⟩ := Interleaved32.storeLane_upd (N := 4) (by decide) hm hi p hp w
  rw [Interleaved32.laneIndex_eq (by decide) hi p hp] at e
  refine ⟨mem', ?_, u.congr hg⟩
  unfold str
  rw [if_pos (by omega), ← e]
  congr 1
  omega

theorem ldr_ok (base : Nat) (buf : Bytes) (hb : base % 4 = 0) (p : Nat) (h : 4 * p + 4 ≤ buf.length) {a : Nat} (ha : a = 4 * p) :
    ldr base buf a = some (wd buf p) := by
  subst ha
  unfold ldr
  rw [if_pos (by omega), loadWord_ok _ _ h]

theorem overwrite4_upd {base : Nat} (hb : base % 4 = 0) {i : Nat} (hi : i < 4) {mem : Bytes} (hm : mem.length = 48 * 4) (data : Bytes)
    (hd : data.length = 48) (p : Nat) (hp : p + 4 ≤ 12) {r0 r2 : Nat} (h0 : r0 = 4 * i + 16 * p) (h2 : r2 = 4 * p) :
    ∃ mem', overwrite4 base data ⟨mem, r0, r2⟩ = some ⟨mem', r0 + 64, r2 + 16⟩ ∧
      Upd 4 i mem mem' (4 * p) (4 * (p + 4)) (fun j _ => data.getD j 0) := by
  have hg : ∀ p, ∀ j, ∀ _ : Byte, 4 * p ≤ j → j < 4 * p + 4 → byteOf (wd data p) (j - 4 * p) = (fun j (_ : Byte) => data.getD j 0) j 0 := by
    intro p j _ h1 h2
    rw [byteOf_wd _ _ _ (by omega), show 4 * p + (j - 4 * p) = j by omega]
  obtain ⟨m1, e1, u1⟩ := str_upd hm hi (show p < 12 by omega) (wd data p) (g := fun j _ => data.getD j 0) (hg p) (r0 := r0) (by omega)
  obtain ⟨m2, e2, u2⟩ := str_upd (u1.len.trans hm) hi (show p + 1 < 12 by omega) (wd data (p + 1)) (g := fun j _ => data.getD j 0) (hg (p + 1)) (r0 := r0 + 16) (by omega)
  have v2 := u1.trans u2 (by omega) (by omega)
  obtain ⟨m3, e3, u3⟩ := str_upd (v2.len.trans hm) hi (show p + 2 < 12 by omega) (wd data (p + 2)) (g := fun j _ => data.getD j 0) (hg (p + 2)) (r0 := r0 + 32) (by omega)
  have v3 := v2.trans u3 (by omega) (by omega)
  obtain ⟨m4, e4, u4⟩ := str_upd (v3.len.trans hm) hi (show p + 3 < 12 by omega) (wd data (p + 3)) (g := fun j _ => data.getD j 0) (hg (p + 3)) (r0 := r0 + 48) (by omega)
  refine ⟨m4, ?_, v3.trans u4 (by omega) (by omega)⟩
  unfold overwrite4
  simp only [Option.bind_eq_bind]
  rw [ldr_ok base data hb p (by omega) (by omega), Option.bind_some, ldr_ok base data hb (p + 1) (by omega) (by omega), Option.bind_some,
    ldr_ok base data hb (p + 2) (by omega) (by omega), Option.bind_some, ldr_ok base data hb (p + 3) (by omega) (by omega), Option.bind_some,
    e1, Option.bind_some, e2, Option.bind_some, e3, Option.bind_some, e4, Option.bind_some]

theorem overwriteBytes_upd (base : Nat) {i : Nat} (hi : i < 4) {mem : Bytes} (hm : mem.length = 48 * 4) (data : Bytes) (off : Nat)
    (hd : off + data.length ≤ 48) :
    ∃ mem', overwriteBytes base mem i data off = some mem' ∧ Upd 4 i mem mem' off (off + data.length) (fun j _ => data.getD (j - off) 0) := by
  unfold overwriteBytes
  by_cases hc : data.length = 48 ∧ base % 4 = 0
  · rw [if_pos hc]
    obtain ⟨h48, hb⟩ := hc
    obtain rfl : off = 0 := by omega
    obtain ⟨m1, e1, u1⟩ := overwrite4_upd hb hi hm data h48 0 (by omega) (r0 := i * 4 % 2 ^ 32) (r2 := 0) (by omega) (by omega)
    obtain ⟨m2, e2, u2⟩ := overwrite4_upd hb hi (u1.len.trans hm) data h48 4 (by omega) (r0 := i * 4 % 2 ^ 32 + 64) (r2 := 0 + 16) (by omega) (by omega)
    have v2 := u1.trans u2 (by omega) (by omega)
    obtain ⟨m3, e3, u3⟩ := overwrite4_upd hb hi (v2.len.trans hm) data h48 8 (by omega) (r0 := i * 4 % 2 ^ 32 + 64 + 64) (r2 := 0 + 16 + 16) (by omega) (by omega)
    refine ⟨m3, ?_, ?_⟩
    · simp only [Option.bind_eq_bind]
      rw [e1, Option.bind_some, e2, Option.bind_some, e3, Option.bind_some]
    · rw [h48]
      exact v2.trans u3 (by omega) (by omega)
  · rw [if_neg hc]
    obtain ⟨s', e, u⟩ := writeLoop (body := overwriteOne data) hi hm data off hd (fun j _ => data.getD (j - off) 0) (fun p hp m hl => by
      obtain ⟨m', e, u⟩ := strb_upd hl hi (show off + p < 48 by omega) (data.getD p 0)
        (g := fun j _ => data.getD (j - off) 0) (by rw [Nat.add_sub_cancel_left])
      refine ⟨m', ?_, u⟩
      unfold overwriteOne
      simp only [Option.bind_eq_bind]
      rw [ldrb_ok _ _ hp, Option.bind_some, e, Option.bind_some])
    exact ⟨s'.st, by rw [e]; rfl, u⟩

theorem zeroOnes_upd {i : Nat} (hi : i < 4) : ∀ (fuel : Nat) (mem : Bytes) (j n r0 : Nat), mem.length = 48 * 4 → n < fuel → j % 4 + n < 4 → j + n ≤ 48 →
    r0 = pos 4 i j → ∃ mem', zeroOnes fuel mem r0 n = some mem' ∧ Upd 4 i mem mem' j (j + n) (fun _ _ => 0) := by
  intro fuel
  induction fuel with
  | zero => intro mem j n r0 _ h; omega
  | succ fuel ih =>
    intro mem j n r0 hm hf h4 h48 hr
    rw [zeroOnes]
    by_cases h0 : n < 1
    · rw [if_pos h0]
      obtain rfl : n = 0 := by omega
      exact ⟨mem, rfl, Upd.refl _ _ _⟩
    · rw [if_neg h0]
      obtain ⟨m1, e1, u1⟩ := strb_upd hm hi (show j < 48 by omega) 0 (g := fun _ _ => 0) rfl
      subst hr
      simp only [Option.bind_eq_bind]
      rw [e1, Option.bind_some]
      by_cases h1 : 1 < n
      · rw [if_pos h1]
        obtain ⟨m2, e2, u2⟩ := ih m1 (j + 1) (n - 1) (pos 4 i j + 1) (u1.len.trans hm) (by omega) (by omega) (by omega) (by unfold pos; omega)
        refine ⟨m2, e2, ?_⟩
        have := u1.trans u2 (by omega) (by omega)
        rwa [show j + 1 + (n - 1) = j + n by omega] at this
      · rw [if_neg h1]
        obtain rfl : n = 1 := by omega
        exact ⟨m1, rfl, u1⟩

theorem zeroLanes_upd {i : Nat} (hi : i < 4) : ∀ (fuel : Nat) (mem : Bytes) (p n r0 : Nat), mem.length = 48 * 4 → n < fuel → 4 * p + n ≤ 48 →
    r0 = 4 * i + 16 * p → ∃ mem', zeroLanes fuel mem r0 n = some mem' ∧ Upd 4 i mem mem' (4 * p) (4 * p + n) (fun _ _ => 0) := by
  intro fuel
  induction fuel with
  | zero => intro mem p n r0 _ h; omega
  | succ fuel ih =>
    intro mem p n r0 hm hf h48 hr
    rw [zeroLanes]
    by_cases h4 : n < 4
    · rw [if_pos h4]
      have e : add32 (sub32 n 4) 4 = n := by simp only [add32, sub32]; omega
      rw [e]
      exact zeroOnes_upd hi _ mem (4 * p) n r0 hm (by omega) (by omega) h48 (by unfold pos; omega)
    · rw [if_neg h4]
      obtain ⟨m1, e1, u1⟩ := str_upd hm hi (show p < 12 by omega) 0 (g := fun _ _ => 0) (fun j _ _ _ => by simp [byteOf]) hr
      simp only [Option.bind_eq_bind]
      rw [e1, Option.bind_some]
      by_cases h1 : 4 < n
      · rw [if_pos h1]
        obtain ⟨m2, e2, u2⟩ := ih m1 (p + 1) (n - 4) (r0 + 16) (u1.len.trans hm) (by omega) (by omega) (by omega)
        refine ⟨m2, e2, ?_⟩
        have := u1.trans u2 (by omega) (by omega)
        rwa [show 4 * (p + 1) + (n - 4) = 4 * p + n by omega] at this
      · rw [if_neg h1]
        obtain rfl : n = 4 := by omega
        exact ⟨m1, rfl, u1⟩

theorem overwriteWithZeroes_upd {i : Nat} (hi : i < 4) {mem : Bytes} (hm : mem.length = 48 * 4) (n : Nat) (hn : n ≤ 48) :
    ∃ mem', overwriteWithZeroes mem i n = some mem' ∧ Upd 4 i mem mem' 0 n (fun _ _ => 0) := by
  obtain ⟨mem', e, u⟩ := zeroLanes_upd hi (2 ^ 32) mem 0 n (i * 4 % 2 ^ 32) hm (by omega) (by omega) (by omega)
  refine ⟨mem', e, ?_⟩
  simpa using u

/-! ### Output -/

/-- What was written is `f 0`, ..., `f (n - 1)`. -/
def Written (f : Nat → Byte) (n : Nat) (out : Bytes) : Prop := out.length = n ∧ ∀ j < n, out.getD j 0 = f j

theorem Written.append {f : Nat → Byte} {n m : Nat} {out d : Bytes} (h : Written f n out) (hd : Written (fun j => f (n + j)) m d) : Written f (n + m) (out ++ d) := by
  obtain ⟨h1, h2⟩ := h
  obtain ⟨h3, h4⟩ := hd
  refine ⟨by rw [List.length_append, h1, h3], fun j hj => ?_⟩
  by_cases hc : j < n
  · rw [← h2 j hc, List.getD_append _ _ _ _ (by omega)]
  · rw [List.getD_append_right _ _ _ _ (by omega), h1, h4 _ (by omega)]
    exact congrArg f (by omega)

theorem Written.one {f : Nat → Byte} {n : Nat} {out : Bytes} {b : Byte} (h : Written f n out) (hb : b = f n) : Written f (n + 1) (out ++ [b]) :=
  h.append ⟨rfl, fun j hj => by obtain rfl : j = 0 := by omega
                                exact hb⟩

theorem Written.word {f : Nat → Byte} {p : Nat} {out : Bytes} {w : Lane} (h : Written f (4 * p) out) (hw : ∀ r < 4, byteOf w r = f (4 * p + r)) :
    Written f (4 * (p + 1)) (out ++ bytesOfWord w) :=
  h.append ⟨Xoodoo.length_bytesOfWord _, fun j hj => by rw [getD_bytesOfWord _ _ hj]; exact hw j hj⟩

theorem Written.ext {f : Nat → Byte} {n : Nat} {out out' : Bytes} (h : Written f n out) (h' : Written f n out') : out = out' :=
  bytes_ext (h.1.trans h'.1.symm) fun j hj => by rw [h.2 j (h.1 ▸ hj), h'.2 j (h.1 ▸ hj)]

theorem written_slice (mem : Bytes) (i off len : Nat) (h : off + len ≤ 48) :
    Written (fun j => mem.getD (pos 4 i (off + j)) 0) len (Bytes.slice (view 4 mem i) off len) :=
  ⟨Bytes.length_slice_of_le (by simpa using h), fun j hj => by rw [getD_slice, if_pos hj, getD_view _ _ _ _ (by omega)]⟩

/-- The loops that write to a buffer. -/
theorem readLoop {body : Ex → Option Ex} {i : Nat} (hi : i < 4) (off len : Nat) (hd : off + len ≤ 48) (f : Nat → Byte) (k : Nat)
    (hb : ∀ p < len, ∀ out, body ⟨out, pos 4 i (off + p), k * p⟩ = some ⟨out ++ [f p], skip (pos 4 i (off + p) + 1), k * (p + 1)⟩) :
    ∃ s', loop body (2 ^ 32) len ⟨[], start i off, 0⟩ = some s' ∧ Written f len s'.out := by
  obtain ⟨s', e, h1, _⟩ := loop_inv body (fun p s => Written f p s.out ∧ s.r0 = pos 4 i (off + p) ∧ s.r2 = k * p) len
    (fun p s hp h => by
      obtain ⟨out, r0, r2⟩ := s
      obtain ⟨h1, h2, h3⟩ := h
      simp only at h1 h2 h3
      subst h2 h3
      exact ⟨_, hb p hp out, h1.one rfl, skip_eq hi, rfl⟩) (2 ^ 32) len 0 ⟨[], start i off, 0⟩
    (by omega) (by omega) ⟨⟨rfl, fun j hj => by omega⟩, start_eq hi (by omega), by simp⟩
  exact ⟨s', e, h1⟩

theorem extractBytes_eq {i : Nat} (hi : i < 4) {mem : Bytes} (hm : mem.length = 48 * 4) (off len : Nat) (h : off + len ≤ 48) :
    extractBytes mem i off len = some (Bytes.slice (view 4 mem i) off len) := by
  obtain ⟨s', e, w⟩ := readLoop (body := extractOne mem) hi off len h (fun j => mem.getD (pos 4 i (off + j)) 0) 0 (fun p hp out => by
    unfold extractOne
    simp only [Option.bind_eq_bind]
    rw [ldrb_ok _ _ (pos_lt hm hi (by omega)), Option.bind_some, Nat.zero_mul, Nat.zero_mul])
  unfold extractBytes
  rw [e]
  exact congrArg some (w.ext (written_slice mem i off len h))

theorem extractAdd3_ok {base : Nat} (hb : base % 4 = 0) {i : Nat} (hi : i < 4) {mem : Bytes} (hm : mem.length = 48 * 4) (input : Bytes)
    (hd : input.length = 48) (p : Nat) (hp : p + 3 ≤ 12) {r0 r2 : Nat} (h0 : r0 = 4 * i + 16 * p) (h2 : r2 = 4 * p) (out : Bytes)
    (hw : Written (fun j => mem.getD (pos 4 i j) 0 ^^^ input.getD j 0) (4 * p) out) :
    ∃ out', extractAdd3 base mem input ⟨out, r0, r2⟩ = some ⟨out', r0 + 48, r2 + 12⟩ ∧
      Written (fun j => mem.getD (pos 4 i j) 0 ^^^ input.getD j 0) (4 * (p + 3)) out' := by
  have hg : ∀ p, ∀ r < 4, byteOf (wd input p ^^^ wd mem (p * 4 + i)) r = mem.getD (pos 4 i (4 * p + r)) 0 ^^^ input.getD (4 * p + r) 0 := by
    intro p r hr
    rw [Xoodoo.byteOf_xor, byteOf_wd _ _ _ hr, byteOf_wd _ _ _ hr, BitVec.xor_comm]
    congr 2
    unfold pos; omega
  refine ⟨_, ?_, ((hw.word (hg p)).word (hg (p + 1))).word (hg (p + 2))⟩
  unfold extractAdd3
  simp only [Option.bind_eq_bind]
  rw [ldr_ok base input hb p (by omega) (by omega), Option.bind_some, ldr_ok base input hb (p + 1) (by omega) (by omega), Option.bind_some,
    ldr_ok base input hb (p + 2) (by omega) (by omega), Option.bind_some, ldr_ok 0 mem rfl (p * 4 + i) (by omega) (by omega), Option.bind_some,
    ldr_ok 0 mem rfl ((p + 1) * 4 + i) (by omega) (by omega), Option.bind_some, ldr_ok 0 mem rfl ((p + 2) * 4 + i) (by omega) (by omega), Option.bind_some]

theorem extractAndAddBytes_eq (basei baseo : Nat) {i : Nat} (hi : i < 4) {mem : Bytes} (hm : mem.length = 48 * 4) (input : Bytes) (off : Nat)
    (h : off + input.length ≤ 48) :
    extractAndAddBytes basei baseo mem i input off = some (Bytes.xor input (Bytes.slice (view 4 mem i) off input.length)) := by
  have hs := written_slice mem i off input.length h
  have hx : Written (fun j => mem.getD (pos 4 i (off + j)) 0 ^^^ input.getD j 0) input.length (Bytes.xor input (Bytes.slice (view 4 mem i) off input.length)) :=
    ⟨by rw [Bytes.length_xor, hs.1, Nat.min_self], fun j hj => by rw [getD_xor _ _ _ hj (by rw [hs.1]; exact hj), hs.2 j hj, BitVec.xor_comm]⟩
  unfold extractAndAddBytes
  by_cases hc : input.length = 48 ∧ basei % 4 = 0 ∧ baseo % 4 = 0
  · rw [if_pos hc]
    obtain ⟨h48, hb, _⟩ := hc
    obtain rfl : off = 0 := by omega
    obtain ⟨o1, e1, w1⟩ := extractAdd3_ok hb hi hm input h48 0 (by omega) (r0 := i * 4 % 2 ^ 32) (r2 := 0) (by omega) (by omega) [] ⟨rfl, fun j hj => by omega⟩
    obtain ⟨o2, e2, w2⟩ := extractAdd3_ok hb hi hm input h48 3 (by omega) (r0 := i * 4 % 2 ^ 32 + 48) (r2 := 0 + 12) (by omega) (by omega) o1 w1
    obtain ⟨o3, e3, w3⟩ := extractAdd3_ok hb hi hm input h48 6 (by omega) (r0 := i * 4 % 2 ^ 32 + 48 + 48) (r2 := 0 + 12 + 12) (by omega) (by omega) o2 w2
    obtain ⟨o4, e4, w4⟩ := extractAdd3_ok hb hi hm input h48 9 (by omega) (r0 := i * 4 % 2 ^ 32 + 48 + 48 + 48) (r2 := 0 + 12 + 12 + 12) (by omega) (by omega) o3 w3
    simp only [Option.bind_eq_bind]
    rw [e1, Option.bind_some, e2, Option.bind_some, e3, Option.bind_some, e4, Option.bind_some]
    simp only [Nat.zero_add, h48] at hx
    rw [h48]
    exact congrArg some (w4.ext hx)
  · rw [if_neg hc]
    obtain ⟨s', e, w⟩ := readLoop (body := extractAddOne mem input) hi off input.length h (fun j => mem.getD (pos 4 i (off + j)) 0 ^^^ input.getD j 0) 1
      (fun p hp out => by
        unfold extractAddOne
        simp only [Option.bind_eq_bind]
        rw [ldrb_ok _ _ (pos_lt hm hi (by omega)), Option.bind_some, Nat.one_mul, ldrb_ok _ _ hp, Option.bind_some, Nat.one_mul])
    rw [e]
    exact congrArg some (w.ext hx)

end XoodooTimes4Neon
