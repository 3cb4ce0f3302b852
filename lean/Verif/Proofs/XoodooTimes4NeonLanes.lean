import Verif.Proofs.XoodooTimes4NeonBytes

/-!
The functions on lanes of the NEON implementation of four instances of Xoodoo.
-/

namespace XoodooTimes4Neon

open Xoodoo (Lane wordOfBytes bytesOfWord byteOf)
open Simd32
open XoodooSimd
open XoodooArm (add32 sub32 ldrb strb)

variable {lo lc : Nat}

/-! ### Words by bytes -/

theorem byteOf_bytes (a b c d : Byte) (r : Nat) (hr : r < 4) :
    byteOf (a.setWidth 32 ^^^ b.setWidth 32 <<< 8 ^^^ c.setWidth 32 <<< 16 ^^^ d.setWidth 32 <<< 24) r = if r = 0 then a else if r = 1 then b else if r = 2 then c else d := by
  have hz : ∀ x : Byte, ∀ i, 8 ≤ i → x.getLsbD i = false := fun x i h => BitVec.getLsbD_of_ge x i h
  obtain rfl | rfl | rfl | rfl : r = 0 ∨ r = 1 ∨ r = 2 ∨ r = 3 := by omega
  all_goals
    unfold byteOf
    apply BitVec.eq_of_getLsbD_eq
    intro i hi
    simp [BitVec.getLsbD_shiftLeft, hi]
    try simp [hz a (16 + i) (by omega), hz a (24 + i) (by omega), hz b (16 + i) (by omega), show 8 + i < 16 by omega, show 16 + i - 8 = 8 + i by omega,
      show 24 + i - 8 = 16 + i by omega, show 24 + i - 16 = 8 + i by omega, show 16 + i < 24 by omega, show 8 + i < 24 by omega, show i < 32 by omega,
      show 8 + i < 32 by omega, show 16 + i < 32 by omega, show 24 + i < 32 by omega]

theorem ldrb4_ok (buf : Bytes) (q : Nat) (h : 4 * q + 4 ≤ buf.length) : ldrb4 buf (4 * q) = some (wd buf q) := by
  unfold ldrb4
  simp only [Option.bind_eq_bind]
  rw [ldrb_ok _ _ (by omega), Option.bind_some, ldrb_ok _ _ (by omega), Option.bind_some, ldrb_ok _ _ (by omega), Option.bind_some, ldrb_ok _ _ (by omega), Option.bind_some]
  refine congrArg some (Xoodoo.lane_ext fun r hr => ?_)
  rw [byteOf_bytes _ _ _ _ r hr, byteOf_wd _ _ _ hr]
  obtain rfl | rfl | rfl | rfl : r = 0 ∨ r = 1 ∨ r = 2 ∨ r = 3 := by omega
  all_goals rfl

theorem strb_ok (buf : Bytes) (a : Nat) (b : Byte) (h : a < buf.length) : strb buf a b = some (buf.set a b) := by
  unfold strb; rw [if_pos h]

theorem strb4_ok (buf : Bytes) (q : Nat) (w : Lane) (h : 4 * q + 4 ≤ buf.length) : strb4 buf (4 * q) w = storeWord buf (4 * q) w := by
  obtain ⟨b, e, hs⟩ := storeWord_ok buf q w h
  rw [e]
  unfold strb4
  simp only [Option.bind_eq_bind]
  rw [strb_ok _ _ _ (by omega), Option.bind_some, strb_ok _ _ _ (by simp; omega), Option.bind_some, strb_ok _ _ _ (by simp; omega), Option.bind_some,
    strb_ok _ _ _ (by simp; omega)]
  refine congrArg some (bytes_ext (by simp [hs.len]) fun j hj => ?_)
  rw [hs.byte, getD_set _ _ _ _ (by simp; omega), getD_set _ _ _ _ (by simp; omega), getD_set _ _ _ _ (by simp; omega), getD_set _ _ _ _ (by omega)]
  by_cases hc : 4 * q ≤ j ∧ j < 4 * (q + 1)
  · rw [if_pos hc]
    obtain rfl | rfl | rfl | rfl : j = 4 * q ∨ j = 4 * q + 1 ∨ j = 4 * q + 2 ∨ j = 4 * q + 3 := by omega
    · rw [if_neg (by omega), if_neg (by omega), if_neg (by omega), if_pos rfl, show 4 * q % 4 = 0 by omega]; simp [byteOf]
    · rw [if_neg (by omega), if_neg (by omega), if_pos rfl, show (4 * q + 1) % 4 = 1 by omega]; simp [byteOf]
    · rw [if_neg (by omega), if_pos rfl, show (4 * q + 2) % 4 = 2 by omega]; simp [byteOf, ← BitVec.shiftRight_add]
    · rw [if_pos rfl, show (4 * q + 3) % 4 = 3 by omega]; simp [byteOf, ← BitVec.shiftRight_add]
  · rw [if_neg hc, if_neg (by omega), if_neg (by omega), if_neg (by omega), if_neg (by omega)]

/-! ### Pointers -/

/-- The pointers at lane `p`. -/
def Ptrs.at (lo p : Nat) : Ptrs := ⟨4 * (0 * lo + p), 4 * (1 * lo + p), 4 * (2 * lo + p), 4 * (3 * lo + p)⟩

theorem Ptrs.next_at (lo p : Nat) : (Ptrs.at lo p).next = Ptrs.at lo (p + 1) := by
  simp only [Ptrs.next, Ptrs.at, Ptrs.mk.injEq]; omega

theorem ptrs_eq {buf : Bytes} (h : Acc 4 lo lc buf) : ptrs lo = Ptrs.at lo 0 := by
  have := h.small 3 (by omega)
  simp only [ptrs, Ptrs.at, Ptrs.mk.injEq, add32]
  omega

theorem Acc.word {buf : Bytes} (h : Acc 4 lo lc buf) {k p : Nat} (hk : k < 4) (hp : p < lc) : 4 * (k * lo + p) + 4 ≤ buf.length := by
  have := inBuf_word h.inBuf k hk
  omega

/-- The words of lane `p` of the four instances. -/
def row (data : Bytes) (lo p : Nat) : Vec 4 := fun l => wd data (l.val * lo + p)

theorem sets (q : Vec 4) (f : Nat → Lane) : setS (setS (setS (setS q 0 (f 0)) 1 (f 1)) 2 (f 2)) 3 (f 3) = fun l => f l.val := by
  funext l
  fin_cases l <;> rfl

theorem gather_ok {base : Nat} (hb : base % 4 = 0) {data : Bytes} (h : Acc 4 lo lc data) {p : Nat} (hp : p < lc) (q : Vec 4) :
    gather base data (Ptrs.at lo p) q = some (row data lo p) := by
  unfold gather Ptrs.at
  simp only [Option.bind_eq_bind]
  rw [ldr_ok base data hb _ (Acc.word h (by omega : 0 < 4) hp) rfl, Option.bind_some, ldr_ok base data hb _ (Acc.word h (by omega : 1 < 4) hp) rfl, Option.bind_some,
    ldr_ok base data hb _ (Acc.word h (by omega : 2 < 4) hp) rfl, Option.bind_some, ldr_ok base data hb _ (Acc.word h (by omega : 3 < 4) hp) rfl, Option.bind_some]
  exact congrArg some (sets q fun k => wd data (k * lo + p))

theorem gatherB_ok {data : Bytes} (h : Acc 4 lo lc data) {p : Nat} (hp : p < lc) (q : Vec 4) :
    gatherB data (Ptrs.at lo p) q = some (row data lo p) := by
  unfold gatherB Ptrs.at
  simp only [Option.bind_eq_bind]
  rw [ldrb4_ok data _ (Acc.word h (by omega : 0 < 4) hp), Option.bind_some, ldrb4_ok data _ (Acc.word h (by omega : 1 < 4) hp), Option.bind_some,
    ldrb4_ok data _ (Acc.word h (by omega : 2 < 4) hp), Option.bind_some, ldrb4_ok data _ (Acc.word h (by omega : 3 < 4) hp), Option.bind_some]
  exact congrArg some (sets q fun k => wd data (k * lo + p))

theorem get_ok (base : Nat) {data : Bytes} (h : Acc 4 lo lc data) {p : Nat} (hp : p < lc) (q : Vec 4) :
    (if base % 4 = 0 then gather base data else gatherB data) (Ptrs.at lo p) q = some (row data lo p) := by
  split
  · rename_i hb; exact gather_ok hb h hp q
  · exact gatherB_ok h hp q

/-! ### States -/

theorem vstm_ext {mem m1 : Bytes} (hm : mem.length = 48 * 4) {a p : Nat} {g : Nat → Nat → Lane → Lane} (h : SUpd 4 mem m1 a p g) (ha : a ≤ p) (hp : p < 12)
    (v : Vec 4) (hv : ∀ k (hk : k < 4), v ⟨k, hk⟩ = g k p (wd mem (p * 4 + k))) {r0 : Nat} (hr : r0 = 16 * p) :
    ∃ m2, vstm 0 m1 r0 v = some m2 ∧ SUpd 4 mem m2 a (p + 1) g := by
  subst hr
  obtain ⟨m2, e, u⟩ := vstm_st (h.len.trans hm) p hp v
  refine ⟨m2, e, u.len.trans h.len, fun k hk q => ?_⟩
  rw [u.lane k hk, h.lane k hk]
  by_cases hq : q = p
  · subst hq
    rw [if_pos (by omega), if_pos (by omega), Vec.at, dif_pos hk, hv k hk]
  · rw [if_neg (by omega)]
    by_cases hc : a ≤ q ∧ q < p
    · rw [if_pos hc, if_pos (by omega)]
    · rw [if_neg hc, if_neg (by omega)]

theorem vldm_ext {mem m1 : Bytes} (hm : mem.length = 48 * 4) {a p : Nat} {g : Nat → Nat → Lane → Lane} (h : SUpd 4 mem m1 a p g) (hp : p < 12) :
    vldm 0 m1 (16 * p) = some fun l => wd mem (p * 4 + l.val) := by
  rw [vldm_st (h.len.trans hm) p hp]
  refine congrArg some (funext fun l => ?_)
  rw [h.lane l.val l.isLt, if_neg (by omega)]

/-- The function on lanes for `AddLanesAll`. -/
abbrev addG (data : Bytes) (lo : Nat) : Nat → Nat → Lane → Lane := fun k p x => x ^^^ wd data (k * lo + p)

theorem addLoop_ok {get : Ptrs → Vec 4 → Option (Vec 4)} {data mem : Bytes} (g : Regs) (hm : mem.length = 48 * 4) (h12 : lc ≤ 12) (h : Acc 4 lo lc data)
    (hg : ∀ p < lc, ∀ q, get (Ptrs.at lo p) q = some (row data lo p)) :
    ∃ s, loop (addRow get) (2 ^ 32) lc ⟨g, mem, 0, ptrs lo⟩ = some s ∧ SUpd 4 mem s.st 0 lc (addG data lo) ∧
      ∃ q0 q1, s.g = { g with q0 := q0, q1 := q1 } := by
  obtain ⟨s, e, h1, _, _, h4⟩ := loop_inv (addRow get) (fun p s => SUpd 4 mem s.st 0 p (addG data lo) ∧ s.r0 = 16 * p ∧ s.p = Ptrs.at lo p ∧
      ∃ q0 q1, s.g = { g with q0 := q0, q1 := q1 }) lc
    (fun p s hp h => by
      obtain ⟨g', st, r0, ps⟩ := s
      obtain ⟨h1, h2, h3, q0, q1, h4⟩ := h
      simp only at h1 h2 h3 h4
      subst h2 h3 h4
      obtain ⟨m', e, u⟩ := vstm_ext hm h1 (by omega) (by omega) (xor (fun l => wd mem (p * 4 + l.val)) (row data lo p)) (fun k hk => rfl) rfl
      refine ⟨⟨{ g with q0 := xor (fun l => wd mem (p * 4 + l.val)) (row data lo p), q1 := row data lo p }, m', 16 * p + 16, (Ptrs.at lo p).next⟩, ?_, u, rfl,
        Ptrs.next_at lo p, _, _, rfl⟩
      · unfold addRow
        simp only [Option.bind_eq_bind]
        rw [vldm_ext hm h1 (by omega), Option.bind_some, hg p hp, Option.bind_some, e, Option.bind_some]) (2 ^ 32) lc 0 ⟨g, mem, 0, ptrs lo⟩
    (by omega) (by omega) ⟨SUpd.refl _ _ _, rfl, ptrs_eq h, g.q0, g.q1, rfl⟩
  exact ⟨s, e, h1, h4⟩

theorem overwriteLanesAll_ok (base : Nat) {data mem : Bytes} (g : Regs) (hm : mem.length = 48 * 4) (h12 : lc ≤ 12) (h : Acc 4 lo lc data) :
    ∃ mem', overwriteLanesAll base g mem data lc lo = some mem' ∧ SUpd 4 mem mem' 0 lc (fun k p _ => wd data (k * lo + p)) := by
  obtain ⟨s, e, h1, _⟩ := loop_inv (overwriteRow (if base % 4 = 0 then gather base data else gatherB data))
    (fun p s => SUpd 4 mem s.st 0 p (fun k p _ => wd data (k * lo + p)) ∧ s.r0 = 16 * p ∧ s.p = Ptrs.at lo p) lc
    (fun p s hp hI => by
      obtain ⟨g', st, r0, ps⟩ := s
      obtain ⟨h1, h2, h3⟩ := hI
      simp only at h1 h2 h3
      subst h2 h3
      obtain ⟨m', e, u⟩ := vstm_ext hm h1 (by omega) (by omega) (row data lo p) (fun k hk => rfl) rfl
      refine ⟨⟨{ g' with q0 := row data lo p }, m', 16 * p + 16, (Ptrs.at lo p).next⟩, ?_, u, rfl, Ptrs.next_at lo p⟩
      · unfold overwriteRow
        simp only [Option.bind_eq_bind]
        rw [get_ok base h hp, Option.bind_some, e, Option.bind_some]) (2 ^ 32) lc 0 ⟨g, mem, 0, ptrs lo⟩
    (by omega) (by omega) ⟨SUpd.refl _ _ _, rfl, ptrs_eq h⟩
  exact ⟨s.st, by unfold overwriteLanesAll; rw [e]; rfl, h1⟩

/-! ### All lanes -/

theorem vldm_data {base : Nat} (hb : base % 4 = 0) {data : Bytes} (t : Nat) (h : 16 * t + 16 ≤ data.length) {a : Nat} (ha : a = 16 * t) :
    vldm base data a = some fun l => wd data (4 * t + l.val) := by
  subst ha
  unfold vldm
  rw [if_pos (by omega), show 16 * t = 4 * (4 * t) by omega, loadVec_ok _ _ _ (by omega)]

/-- The registers after the transposition. -/
def transposed (data : Bytes) (g : Regs) : Regs :=
  let r := row data 12
  ⟨r 0, r 4, r 8, r 2, r 6, r 10, r 1, r 5, r 9, r 3, r 7, r 11, g.q12, g.q13, g.q14, g.q15⟩

/-- The same, by the instructions. -/
def shuffled (w : Nat → Vec 4) (g : Regs) : Regs :=
  let e := fun a b c d => vtrn (vuzp (w a) (w c)).1 (vuzp (w b) (w d)).1
  let o := fun a b c d => vtrn (vuzp (w a) (w c)).2 (vuzp (w b) (w d)).2
  ⟨(e 0 3 6 9).1, (e 1 4 7 10).1, (e 2 5 8 11).1, (e 0 3 6 9).2, (e 1 4 7 10).2, (e 2 5 8 11).2, (o 0 3 6 9).1, (o 1 4 7 10).1, (o 2 5 8 11).1,
    (o 0 3 6 9).2, (o 1 4 7 10).2, (o 2 5 8 11).2, g.q12, g.q13, g.q14, g.q15⟩

theorem transpose_eq (base : Nat) (data : Bytes) (g : Regs) : transpose base data g =
    ((vldm base data 0).bind fun q0 =>
    ((vldm base data 16).bind fun q1 =>
    ((vldm base data 32).bind fun q2 =>
    ((vldm base data 48).bind fun q3 =>
    ((vldm base data 64).bind fun q4 =>
    ((vldm base data 80).bind fun q5 =>
    ((vldm base data 96).bind fun q6 =>
    ((vldm base data 112).bind fun q7 =>
    ((vldm base data 128).bind fun q8 =>
    ((vldm base data 144).bind fun q9 =>
    ((vldm base data 160).bind fun q10 =>
    ((vldm base data 176).bind fun q11 =>
    some (shuffled (fun t => [q0, q1, q2, q3, q4, q5, q6, q7, q8, q9, q10, q11].getD t q0) g))))))))))))) := rfl

theorem transpose_ok {base : Nat} (hb : base % 4 = 0) {data : Bytes} (h : 192 ≤ data.length) (g : Regs) : transpose base data g = some (transposed data g) := by
  rw [transpose_eq, vldm_data hb 0 (by omega) rfl, Option.bind_some, vldm_data hb 1 (by omega) rfl, Option.bind_some, vldm_data hb 2 (by omega) rfl, Option.bind_some, vldm_data hb 3 (by omega) rfl, Option.bind_some, vldm_data hb 4 (by omega) rfl, Option.bind_some, vldm_data hb 5 (by omega) rfl, Option.bind_some, vldm_data hb 6 (by omega) rfl, Option.bind_some, vldm_data hb 7 (by omega) rfl, Option.bind_some, vldm_data hb 8 (by omega) rfl, Option.bind_some, vldm_data hb 9 (by omega) rfl, Option.bind_some, vldm_data hb 10 (by omega) rfl, Option.bind_some, vldm_data hb 11 (by omega) rfl, Option.bind_some]
  refine congrArg some ?_
  unfold shuffled transposed
  dsimp only
  congr 1 <;>
  · funext l
    fin_cases l <;> rfl

theorem add4_ok {mem m : Bytes} (hm : mem.length = 48 * 4) (data : Bytes) (p : Nat) (hp : p + 4 ≤ 12) (h : SUpd 4 mem m 0 p (addG data 12)) {r0 : Nat} (hr : r0 = 16 * p) :
    ∃ m' v, add4 m r0 (row data 12 p) (row data 12 (p + 1)) (row data 12 (p + 2)) (row data 12 (p + 3)) = some (m', v) ∧ SUpd 4 mem m' 0 (p + 4) (addG data 12) := by
  subst hr
  have hl : ∀ j, p ≤ j → j < 12 → vldm 0 m (16 * j) = some fun l => wd mem (j * 4 + l.val) := fun j h1 h2 => by
    rw [vldm_st (h.len.trans hm) j h2]
    refine congrArg some (funext fun l => ?_)
    rw [h.lane l.val l.isLt, if_neg (by omega)]
  have hx : ∀ j k (hk : k < 4), (xor (row data 12 j) (fun l => wd mem (j * 4 + l.val)) : Vec 4) ⟨k, hk⟩ = addG data 12 k j (wd mem (j * 4 + k)) := fun j k hk => BitVec.xor_comm _ _
  obtain ⟨m1, e1, u1⟩ := vstm_ext hm h (by omega) (by omega) (xor (row data 12 p) (fun l => wd mem (p * 4 + l.val))) (hx p) (r0 := 16 * p) rfl
  obtain ⟨m2, e2, u2⟩ := vstm_ext hm u1 (by omega) (by omega) (xor (row data 12 (p + 1)) (fun l => wd mem ((p + 1) * 4 + l.val))) (hx (p + 1)) (r0 := 16 * p + 16) (by omega)
  obtain ⟨m3, e3, u3⟩ := vstm_ext hm u2 (by omega) (by omega) (xor (row data 12 (p + 2)) (fun l => wd mem ((p + 2) * 4 + l.val))) (hx (p + 2)) (r0 := 16 * p + 32) (by omega)
  obtain ⟨m4, e4, u4⟩ := vstm_ext hm u3 (by omega) (by omega) (xor (row data 12 (p + 3)) (fun l => wd mem ((p + 3) * 4 + l.val))) (hx (p + 3)) (r0 := 16 * p + 48) (by omega)
  refine ⟨m4, (xor (row data 12 p) (fun l => wd mem (p * 4 + l.val)), xor (row data 12 (p + 1)) (fun l => wd mem ((p + 1) * 4 + l.val)),
    xor (row data 12 (p + 2)) (fun l => wd mem ((p + 2) * 4 + l.val)), xor (row data 12 (p + 3)) (fun l => wd mem ((p + 3) * 4 + l.val))), ?_, u4⟩
  unfold add4
  simp only [Option.bind_eq_bind]
  rw [hl p (by omega) (by omega), Option.bind_some, show 16 * p + 16 = 16 * (p + 1) by omega, hl (p + 1) (by omega) (by omega), Option.bind_some,
    show 16 * p + 32 = 16 * (p + 2) by omega, hl (p + 2) (by omega) (by omega), Option.bind_some,
    show 16 * p + 48 = 16 * (p + 3) by omega, hl (p + 3) (by omega) (by omega), Option.bind_some]
  simp only [show 16 * (p + 1) = 16 * p + 16 by omega, show 16 * (p + 2) = 16 * p + 32 by omega, show 16 * (p + 3) = 16 * p + 48 by omega]
  rw [e1, Option.bind_some, e2, Option.bind_some, e3, Option.bind_some, e4, Option.bind_some]

theorem addFull_ok {base : Nat} (hb : base % 4 = 0) {mem data : Bytes} (hm : mem.length = 48 * 4) (h : 192 ≤ data.length) (g : Regs) :
    ∃ g' mem', addFull base mem data g = some (g', mem') ∧ SUpd 4 mem mem' 0 12 (addG data 12) ∧
      ∃ q12 q13 q14 q15, g' = { transposed data g with q12 := q12, q13 := q13, q14 := q14, q15 := q15 } := by
  obtain ⟨m1, v1, e1, u1⟩ := add4_ok hm data 0 (by omega) (SUpd.refl mem 0 _) (r0 := 0) rfl
  obtain ⟨m2, v2, e2, u2⟩ := add4_ok hm data 4 (by omega) u1 (r0 := 64) rfl
  obtain ⟨m3, ⟨a, b, c, d⟩, e3, u3⟩ := add4_ok hm data 8 (by omega) u2 (r0 := 128) rfl
  refine ⟨{ transposed data g with q12 := a, q13 := b, q14 := c, q15 := d }, m3, ?_, u3, a, b, c, d, rfl⟩
  have e1' : add4 mem 0 (transposed data g).q0 (transposed data g).q6 (transposed data g).q3 (transposed data g).q9 = some (m1, v1) := e1
  have e2' : add4 m1 64 (transposed data g).q1 (transposed data g).q7 (transposed data g).q4 (transposed data g).q10 = some (m2, v2) := e2
  have e3' : add4 m2 128 (transposed data g).q2 (transposed data g).q8 (transposed data g).q5 (transposed data g).q11 = some (m3, a, b, c, d) := e3
  unfold addFull
  simp only [Option.bind_eq_bind]
  rw [transpose_ok hb h g, Option.bind_some, e1', Option.bind_some]
  simp only []
  rw [e2', Option.bind_some]
  simp only []
  rw [e3', Option.bind_some]

theorem addLanes_ok (base : Nat) {data mem : Bytes} (g : Regs) (hm : mem.length = 48 * 4) (h12 : lc ≤ 12) (h : Acc 4 lo lc data) :
    ∃ g' mem', addLanes base g mem data lc lo = some (g', mem') ∧ SUpd 4 mem mem' 0 lc (addG data lo) := by
  unfold addLanes
  by_cases hc : lc = lo ∧ lc = 12 ∧ base % 4 = 0
  · rw [if_pos hc]
    obtain ⟨rfl, rfl, hb⟩ := hc
    obtain ⟨g', mem', e, u, _⟩ := addFull_ok hb hm (by have := Acc.word h (by omega : 3 < 4) (by omega : 11 < 12); omega) g
    exact ⟨g', mem', e, u⟩
  · rw [if_neg hc]
    obtain ⟨s, e, u, _⟩ := addLoop_ok g hm h12 h (fun p hp q => get_ok base h hp q)
    exact ⟨s.g, s.st, by rw [e]; rfl, u⟩

/-! ### Output -/

theorem rows4 {out : Bytes} (h : Acc 4 lo lc out) (hlo : lc ≤ lo) {p : Nat} (hp : p < lc) (q : Vec 4) {f : Nat → Nat → Lane} (hf : ∀ k (hk : k < 4), q ⟨k, hk⟩ = f k p)
    (st : Bytes → Nat → Lane → Option Bytes) (hst : ∀ (o : Bytes) (j : Nat) (w : Lane), 4 * j + 4 ≤ o.length → st o (4 * j) w = storeWord o (4 * j) w) :
    ∃ o1 o2 o3 o4, st out (4 * (0 * lo + p)) (q 0) = some o1 ∧ st o1 (4 * (1 * lo + p)) (q 1) = some o2 ∧ st o2 (4 * (2 * lo + p)) (q 2) = some o3 ∧
      st o3 (4 * (3 * lo + p)) (q 3) = some o4 ∧ OUpd lo out o4 0 4 p (p + 1) f := by
  have hs : ∀ k (hk : k < 4) (o : Bytes), Acc 4 lo lc o → ∃ o', st o (4 * (k * lo + p)) (q ⟨k, hk⟩) = some o' ∧ OUpd lo o o' k (k + 1) p (p + 1) f := fun k hk o ho => by
    obtain ⟨o', e, u⟩ := ho.store hlo hk hp (hf k hk)
    rw [ptr_eq lo k (ho.small k hk), ← Nat.mul_add] at e
    exact ⟨o', by rw [hst _ _ _ (Acc.word ho hk hp), e], u⟩
  obtain ⟨o1, e1, u1⟩ := hs 0 (by omega) out h
  obtain ⟨o2, e2, u2⟩ := hs 1 (by omega) o1 (h.congr u1.len)
  have v2 := u1.rows u2 (by omega) (by omega)
  obtain ⟨o3, e3, u3⟩ := hs 2 (by omega) o2 (h.congr v2.len)
  have v3 := v2.rows u3 (by omega) (by omega)
  obtain ⟨o4, e4, u4⟩ := hs 3 (by omega) o3 (h.congr v3.len)
  exact ⟨o1, o2, o3, o4, e1, e2, e3, e4, v3.rows u4 (by omega) (by omega)⟩

theorem scatter_ok {base : Nat} (hb : base % 4 = 0) {out : Bytes} (h : Acc 4 lo lc out) (hlo : lc ≤ lo) {p : Nat} (hp : p < lc) (q : Vec 4) {f : Nat → Nat → Lane}
    (hf : ∀ k (hk : k < 4), q ⟨k, hk⟩ = f k p) : ∃ out', scatter base q out (Ptrs.at lo p) = some out' ∧ OUpd lo out out' 0 4 p (p + 1) f := by
  obtain ⟨o1, o2, o3, o4, e1, e2, e3, e4, u⟩ := rows4 h hlo hp q hf (str base) (fun o j w _ => by unfold str; rw [if_pos (by omega)])
  refine ⟨o4, ?_, u⟩
  unfold scatter Ptrs.at
  simp only [Option.bind_eq_bind]
  rw [e1, Option.bind_some, e2, Option.bind_some, e3, Option.bind_some, e4]

theorem scatterB_ok {out : Bytes} (h : Acc 4 lo lc out) (hlo : lc ≤ lo) {p : Nat} (hp : p < lc) (q : Vec 4) {f : Nat → Nat → Lane}
    (hf : ∀ k (hk : k < 4), q ⟨k, hk⟩ = f k p) : ∃ out', scatterB q out (Ptrs.at lo p) = some out' ∧ OUpd lo out out' 0 4 p (p + 1) f := by
  obtain ⟨o1, o2, o3, o4, e1, e2, e3, e4, u⟩ := rows4 h hlo hp q hf strb4 (fun o j w h => strb4_ok o j w h)
  refine ⟨o4, ?_, u⟩
  unfold scatterB Ptrs.at
  simp only [Option.bind_eq_bind]
  rw [e1, Option.bind_some, e2, Option.bind_some, e3, Option.bind_some, e4]

theorem extractLanesAll_ok (base : Nat) {out mem : Bytes} (g : Regs) (hm : mem.length = 48 * 4) (h12 : lc ≤ 12) (hlo : lc ≤ lo) (h : Acc 4 lo lc out) :
    ∃ out', extractLanesAll base g mem out lc lo = some out' ∧ OUpd lo out out' 0 4 0 lc (fun k p => wd mem (p * 4 + k)) := by
  obtain ⟨s, e, h1, _⟩ := loop_inv (extractRow (if base % 4 = 0 then scatter base else scatterB) mem)
    (fun p s => OUpd lo out s.out 0 4 0 p (fun k p => wd mem (p * 4 + k)) ∧ s.r0 = 16 * p ∧ s.o = Ptrs.at lo p) lc
    (fun p s hp hI => by
      obtain ⟨o, r0, ps, os, q0⟩ := s
      obtain ⟨h1, h2, h3⟩ := hI
      simp only at h1 h2 h3
      subst h2 h3
      obtain ⟨o', e, u⟩ : ∃ o', (if base % 4 = 0 then scatter base else scatterB) (fun l : Fin 4 => wd mem (p * 4 + l.val)) o (Ptrs.at lo p) = some o' ∧
          OUpd lo o o' 0 4 p (p + 1) (fun k p => wd mem (p * 4 + k)) := by
        split
        · rename_i hb; exact scatter_ok hb (h.congr h1.len) hlo hp _ (fun k hk => rfl)
        · exact scatterB_ok (h.congr h1.len) hlo hp _ (fun k hk => rfl)
      refine ⟨⟨o', 16 * p + 16, ps, (Ptrs.at lo p).next, fun l => wd mem (p * 4 + l.val)⟩, ?_, h1.cols u (by omega) (by omega), rfl, Ptrs.next_at lo p⟩
      · unfold extractRow
        simp only [Option.bind_eq_bind]
        rw [vldm_st hm p (by omega), Option.bind_some, e, Option.bind_some]) (2 ^ 32) lc 0 ⟨out, 0, ptrs lo, ptrs lo, g.q0⟩
    (by omega) (by omega) ⟨OUpd.refl _ _ _ _ _, rfl, ptrs_eq h⟩
  exact ⟨s.out, by unfold extractLanesAll; rw [e]; rfl, h1⟩

theorem extractAndAddLanesAll_ok {input out mem : Bytes} (g : Regs) (hm : mem.length = 48 * 4) (h12 : lc ≤ 12) (hlo : lc ≤ lo) (hi : Acc 4 lo lc input) (h : Acc 4 lo lc out) :
    ∃ out', extractAndAddLanesAll g mem input out lc lo = some out' ∧ OUpd lo out out' 0 4 0 lc (fun k p => wd input (k * lo + p) ^^^ wd mem (p * 4 + k)) := by
  obtain ⟨s, e, h1, _⟩ := loop_inv (extractAddRow mem input)
    (fun p s => OUpd lo out s.out 0 4 0 p (fun k p => wd input (k * lo + p) ^^^ wd mem (p * 4 + k)) ∧ s.r0 = 16 * p ∧ s.p = Ptrs.at lo p ∧ s.o = Ptrs.at lo p) lc
    (fun p s hp hI => by
      obtain ⟨o, r0, ps, os, q0⟩ := s
      obtain ⟨h1, h2, h3, h4⟩ := hI
      simp only at h1 h2 h3 h4
      subst h2 h3 h4
      obtain ⟨o', e, u⟩ := scatterB_ok (h.congr h1.len) hlo hp (xor (row input lo p) (fun l : Fin 4 => wd mem (p * 4 + l.val)))
        (f := fun k p => wd input (k * lo + p) ^^^ wd mem (p * 4 + k)) (fun k hk => rfl)
      refine ⟨⟨o', 16 * p + 16, (Ptrs.at lo p).next, (Ptrs.at lo p).next, xor (row input lo p) (fun l : Fin 4 => wd mem (p * 4 + l.val))⟩, ?_,
        h1.cols u (by omega) (by omega), rfl, Ptrs.next_at lo p, Ptrs.next_at lo p⟩
      · unfold extractAddRow
        simp only [Option.bind_eq_bind]
        rw [vldm_st hm p (by omega), Option.bind_some, gatherB_ok hi hp, Option.bind_some, e, Option.bind_some]) (2 ^ 32) lc 0 ⟨out, 0, ptrs lo, ptrs lo, g.q0⟩
    (by omega) (by omega) ⟨OUpd.refl _ _ _ _ _, rfl, ptrs_eq h, ptrs_eq h⟩
  exact ⟨s.out, by unfold extractAndAddLanesAll; rw [e]; rfl, h1⟩

/-! ### Initialization -/

theorem initAll_ok {mem : Bytes} (hm : mem.length = 48 * 4) : ∃ mem', initAll mem = some mem' ∧ SUpd 4 mem mem' 0 12 (fun _ _ _ => 0) := by
  have hs : ∀ p < 12, ∀ m : Bytes, SUpd 4 mem m 0 p (fun _ _ _ => 0) → ∃ m', vstm 0 m (16 * p) (set1 0) = some m' ∧ SUpd 4 mem m' 0 (p + 1) (fun _ _ _ => 0) :=
    fun p hp m h => vstm_ext hm h (by omega) hp (set1 0) (fun k hk => rfl) rfl
  obtain ⟨m0, e0, u0⟩ := hs 0 (by omega) mem (SUpd.refl _ _ _)
  obtain ⟨m1, e1, u1⟩ := hs 1 (by omega) m0 u0
  obtain ⟨m2, e2, u2⟩ := hs 2 (by omega) m1 u1
  obtain ⟨m3, e3, u3⟩ := hs 3 (by omega) m2 u2
  obtain ⟨m4, e4, u4⟩ := hs 4 (by omega) m3 u3
  obtain ⟨m5, e5, u5⟩ := hs 5 (by omega) m4 u4
  obtain ⟨m6, e6, u6⟩ := hs 6 (by omega) m5 u5
  obtain ⟨m7, e7, u7⟩ := hs 7 (by omega) m6 u6
  obtain ⟨m8, e8, u8⟩ := hs 8 (by omega) m7 u7
  obtain ⟨m9, e9, u9⟩ := hs 9 (by omega) m8 u8
  obtain ⟨m10, e10, u10⟩ := hs 10 (by omega) m9 u9
  obtain ⟨m11, e11, u11⟩ := hs 11 (by omega) m10 u10
  refine ⟨m11, ?_, u11⟩
  unfold initAll
  simp only [Nat.reduceMul] at e0 e1 e2 e3 e4 e5 e6 e7 e8 e9 e10 e11
  simp only [List.foldlM_cons, List.foldlM_nil, Option.bind_eq_bind, e0, e1, e2, e3, e4, e5, e6, e7, e8, e9, e10, e11, Option.bind_some]
  rfl

/-! ### The implementation -/

theorem impl_ok (g : Regs) (A : Addr) : PlSpec.Independent (impl g A) 48 refPerm (view 4) := by
  have h := independent_of (N := 4) (F := refPerm)
    (I := { impl g A with initAll := Interleaved32.initAll, addByte := Interleaved32.addByte 4, addBytes := Interleaved32.addBytes 4,
                          overwriteBytes := Interleaved32.overwriteBytes 4, overwriteWithZeroes := Interleaved32.overwriteWithZeroes 4,
                          extractBytes := Interleaved32.extractBytes 4, extractAndAddBytes := Interleaved32.extractAndAddBytes 4 })
    (by decide) rfl rfl rfl rfl rfl rfl rfl rfl rfl rfl
    (fun mem data lc lo hm h12 h => by
      obtain ⟨g', mem', e, u⟩ := addLanes_ok A.data g hm h12 h
      exact ⟨mem', show (addLanes A.data g mem data lc lo).map Prod.snd = _ by rw [e]; rfl, u⟩)
    (fun mem data lc lo hm h12 h => overwriteLanesAll_ok A.data g hm h12 h)
    (fun mem out lc lo hm h12 hlo h => extractLanesAll_ok A.output g hm h12 hlo h)
    (fun mem input out lc lo hm h12 hlo hi h => extractAndAddLanesAll_ok g hm h12 hlo hi h)
    (fun p mem hm => permuteAll_ok g p mem hm)
  constructor
  · exact h.width
  · intro mem hm
    obtain ⟨mem', e, u⟩ := initAll_ok hm
    refine ⟨mem', e, u.len.trans hm, fun k hk => u.view hk _ (by simp) fun j hj => ?_⟩
    rw [if_pos (by omega), Interleaved32.getD_zeros]
    simp [byteOf]
  · intro mem hm i hi b off ho
    obtain ⟨mem', e, u⟩ := addByte_upd hi hm b off ho
    refine ⟨mem', e, u.len.trans hm, changed_of_upd (N := 4) hi u _ (by simp) fun j hj => ?_⟩
    rw [getD_xorAt_off _ _ _ _ (by simpa using hj)]
    by_cases hc : off ≤ j ∧ j < off + 1
    · rw [if_pos (by simpa using hc), if_pos hc, show j - off = 0 by omega]; rfl
    · rw [if_neg (by simpa using hc), if_neg hc]
  · intro mem hm i hi data off ho
    obtain ⟨mem', e, u⟩ := addBytes_upd hi hm data off ho
    exact ⟨mem', e, u.len.trans hm, changed_of_upd (N := 4) hi u _ (by simp) fun j hj => getD_xorAt_off _ _ _ _ (by simpa using hj)⟩
  · exact h.addLanesAll
  · intro mem hm i hi data off ho
    obtain ⟨mem', e, u⟩ := overwriteBytes_upd A.data hi hm data off ho
    exact ⟨mem', e, u.len.trans hm, changed_of_upd (N := 4) hi u _ (by simp) fun j hj => getD_setAt _ _ _ _ (by simpa using ho)⟩
  · exact h.overwriteLanesAll
  · intro mem hm i hi n hn
    obtain ⟨mem', e, u⟩ := overwriteWithZeroes_upd hi hm n hn
    refine ⟨mem', e, u.len.trans hm, changed_of_upd (N := 4) hi u _ (by simp) fun j hj => ?_⟩
    rw [getD_setAt _ _ _ _ (by simpa using hn), Interleaved32.getD_zeros]
    simp
  · exact h.permuteAll
  · intro mem hm i hi off len ho
    exact extractBytes_eq hi hm off len ho
  · exact h.extractLanesAll
  · intro mem hm i hi input off ho
    exact extractAndAddBytes_eq A.input A.output hi hm input off ho
  · exact h.extractAndAddLanesAll

end XoodooTimes4Neon
