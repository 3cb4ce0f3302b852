import Verif.Proofs.Farfalle

/-! `Kra` / `Xoofff_Compress`: the effect of one call on the queue, the mask and the accumulator. -/

namespace Farfalle

variable {C : Cfg}

/-- The arrays of the instance have `width` bytes. -/
structure Sized (C : Cfg) (kv : Inst) : Prop where
  k : kv.k.length = C.width
  kRoll : kv.kRoll.length = C.width
  xAccu : kv.xAccu.length = C.width
  yAccu : kv.yAccu.length = C.width
  queue : kv.queue.length = C.width

/-- The queue holds the bytes `r` of the current string, less than a block. -/
structure Pend (C : Cfg) (kv : Inst) (r : Bytes) : Prop where
  lt : r.length < C.width
  offset : kv.queueOffset = 8 * r.length
  queue : kv.queue.take r.length = r

/-- What compression does not modify. -/
structure Frame (kv kv' : Inst) : Prop where
  k : kv'.k = kv.k
  yAccu : kv'.yAccu = kv.yAccu
  phase : kv'.phase = kv.phase

theorem Frame.refl (kv : Inst) : Frame kv kv := ⟨rfl, rfl, rfl⟩

/-- The string `r` is completed: whole blocks and the last block. -/
def finish (C : Cfg) (st : Bytes × Bytes) (r : Bytes) (b : Byte) : Bytes × Bytes :=
  lastBlock C (eat C (r.length / C.width) st r) (r.drop (r.length / C.width * C.width)) b

theorem mod_eq_sub (n w : Nat) : n % w = n - n / w * w := by
  have := Nat.mod_add_div n w
  rw [Nat.mul_comm] at this; omega

theorem length_tail (r : Bytes) (w : Nat) : (r.drop (r.length / w * w)).length = r.length % w := by
  rw [List.length_drop, mod_eq_sub]

theorem take_setAt_zero (s d : Bytes) (h : d.length ≤ s.length) : (Bytes.setAt s 0 d).take d.length = d := by
  apply List.ext_getElem?; intro i
  by_cases hi : i < d.length
  · rw [List.getElem?_take, if_pos hi, Bytes.getElem?_setAt, List.getElem?_eq_getElem (by omega : i < s.length),
      List.getElem?_eq_getElem hi]
    simp [hi, List.getD_eq_getElem?_getD]
  · rw [List.getElem?_take, if_neg hi, List.getElem?_eq_none (by omega)]

theorem take_setAt (s d : Bytes) (o : Nat) (h : o + d.length ≤ s.length) :
    (Bytes.setAt s o d).take (o + d.length) = s.take o ++ d := by
  apply List.ext_getElem?; intro i
  by_cases hi : i < o + d.length
  · rw [List.getElem?_take, if_pos hi, Bytes.getElem?_setAt, List.getElem?_eq_getElem (by omega : i < s.length)]
    by_cases h2 : i < o
    · rw [List.getElem?_append_left (by rw [List.length_take]; omega), List.getElem?_take, if_pos h2,
        List.getElem?_eq_getElem (by omega : i < s.length), Option.map_some, if_neg (by omega)]
    · rw [List.getElem?_append_right (by rw [List.length_take]; omega), Option.map_some, if_pos (by omega),
        List.getD_eq_getElem?_getD, List.length_take, Nat.min_eq_left (by omega),
        List.getElem?_eq_getElem (by omega : i - o < d.length)]
      rfl
  · rw [List.getElem?_take, if_neg hi, List.getElem?_eq_none]
    simp; omega

theorem compressRest_false (hC : Valid C) (kv : Inst) (hs : Sized C kv) (h0 : kv.queueOffset = 0) (input : Bytes) (m : Nat)
    (hm : m ≤ input.length) :
    ∃ kv', compressRest C kv input (8 * m) false = some (0, kv') ∧ Sized C kv' ∧ Frame kv kv' ∧
      (kv'.kRoll, kv'.xAccu) = eat C ((input.take m).length / C.width) (kv.kRoll, kv.xAccu) (input.take m) ∧
      Pend C kv' ((input.take m).drop ((input.take m).length / C.width * C.width)) := by
  have hw := hC.width_pos
  have ht : (input.take m).length = m := by rw [List.length_take]; omega
  have hdiv : 8 * m / 8 = m := by omega
  have hle : m / C.width * C.width ≤ m := Nat.div_mul_le_self _ _
  have hlt := Nat.mod_lt m hw
  rw [ht]
  by_cases hbig : 8 * m ≥ C.width * 8
  · have hcb := compressBlocks_false hC kv.kRoll kv.xAccu input (8 * m) hs.kRoll hs.xAccu (by omega)
    rw [hdiv] at hcb
    obtain ⟨e1, e2⟩ := length_eat hC (m / C.width) (kv.kRoll, kv.xAccu) input hs.kRoll hs.xAccu (by omega)
    have hmod : 8 * m % (C.width * 8) = 8 * (m % C.width) := by
      rw [Nat.mul_comm C.width 8, Nat.mul_mod_mul_left]
    rw [eat_take _ _ _ _ hle]
    by_cases hz : m % C.width = 0
    · refine ⟨{ kv with kRoll := (eat C (m / C.width) (kv.kRoll, kv.xAccu) input).1,
                        xAccu := (eat C (m / C.width) (kv.kRoll, kv.xAccu) input).2 }, ?_, ⟨hs.k, e1, e2, hs.yAccu, hs.queue⟩, ⟨rfl, rfl, rfl⟩, rfl, ?_⟩
      · simp only [compressRest, if_pos (Or.inl hbig), Option.bind_eq_bind]
        rw [hcb, Option.bind_some]
        simp only [hmod, hz, Nat.mul_zero, ne_eq, not_true_eq_false, if_false]
      · have hnil : (input.take m).drop (m / C.width * C.width) = [] := by
          apply List.eq_nil_of_length_eq_zero
          rw [List.length_drop, ht]
          have := mod_eq_sub m C.width; omega
        rw [hnil]
        exact ⟨by simpa using hw, by simpa using h0, rfl⟩
    · have hl : ((input.drop (m / C.width * C.width)).take (m % C.width)).length = m % C.width := by
        rw [List.length_take, List.length_drop]
        have := mod_eq_sub m C.width; omega
      refine ⟨{ kv with kRoll := (eat C (m / C.width) (kv.kRoll, kv.xAccu) input).1,
                        xAccu := (eat C (m / C.width) (kv.kRoll, kv.xAccu) input).2, queue := Bytes.setAt kv.queue 0 ((input.drop (m / C.width * C.width)).take (m % C.width)),
                        queueOffset := 8 * (m % C.width) }, ?_, ⟨hs.k, e1, e2, hs.yAccu, ?_⟩, ⟨rfl, rfl, rfl⟩, rfl, ?_⟩
      · simp only [compressRest, if_pos (Or.inl hbig), Option.bind_eq_bind]
        rw [hcb, Option.bind_some]
        dsimp only
        rw [hmod, if_pos (by omega), show 8 * (m % C.width) / 8 = m % C.width by omega,
          SnP.readBuf_some (by rw [List.length_drop]; have := mod_eq_sub m C.width; omega), Option.bind_some]
      · rw [Bytes.length_setAt]; exact hs.queue
      · have e : (input.take m).drop (m / C.width * C.width) = (input.drop (m / C.width * C.width)).take (m % C.width) := by
          rw [List.drop_take, mod_eq_sub]
        rw [e]
        refine ⟨by omega, by rw [hl], ?_⟩
        have := take_setAt_zero kv.queue ((input.drop (m / C.width * C.width)).take (m % C.width))
          (by rw [hl, hs.queue]; omega)
        exact this
  · have hdz : m / C.width = 0 := Nat.div_eq_of_lt (by omega)
    rw [hdz, Nat.zero_mul, List.drop_zero]
    have hno : ¬ (8 * m ≥ C.width * 8 ∨ false = true) := by simp; omega
    by_cases hz : m = 0
    · subst hz
      refine ⟨kv, ?_, hs, Frame.refl kv, rfl, ⟨by simpa using hw, by simpa using h0, rfl⟩⟩
      simp only [compressRest, if_neg hno]
      rfl
    · refine ⟨{ kv with queue := Bytes.setAt kv.queue 0 (input.take m), queueOffset := 8 * m }, ?_,
        ⟨hs.k, hs.kRoll, hs.xAccu, hs.yAccu, ?_⟩, ⟨rfl, rfl, rfl⟩, rfl, ?_⟩
      · simp only [compressRest, if_neg hno]
        rw [if_pos (by omega), hdiv, SnP.readBuf_some hm]
        rfl
      · rw [Bytes.length_setAt]; exact hs.queue
      · refine ⟨by omega, by rw [ht], ?_⟩
        exact take_setAt_zero kv.queue (input.take m) (by rw [ht, hs.queue]; omega)

theorem compressRest_true (hC : Valid C) (kv : Inst) (hs : Sized C kv) (h0 : kv.queueOffset = 0) (input : Bytes) (n : Nat)
    (b : Byte) (hm : n / 8 ≤ input.length) (hb : padByte (input.drop (n / 8)) (n % 8) = some b) :
    ∃ kv', compressRest C kv input n true = some (0, kv') ∧ Sized C kv' ∧ Frame kv kv' ∧
      (kv'.kRoll, kv'.xAccu) = finish C (kv.kRoll, kv.xAccu) (input.take (n / 8)) b ∧ Pend C kv' [] := by
  have hw := hC.width_pos
  have ht : (input.take (n / 8)).length = n / 8 := by rw [List.length_take]; omega
  have hle : n / 8 / C.width * C.width ≤ n / 8 := Nat.div_mul_le_self _ _
  obtain ⟨m', hcb⟩ := compressBlocks_true hC kv.kRoll kv.xAccu input n b hs.kRoll hs.xAccu hm hb
  obtain ⟨e1, e2⟩ := length_eat hC (n / 8 / C.width) (kv.kRoll, kv.xAccu) input hs.kRoll hs.xAccu (by omega)
  have hfin : finish C (kv.kRoll, kv.xAccu) (input.take (n / 8)) b =
      lastBlock C (eat C (n / 8 / C.width) (kv.kRoll, kv.xAccu) input)
          ((input.drop (n / 8 / C.width * C.width)).take (n / 8 % C.width)) b := by
    rw [finish, ht, eat_take _ _ _ _ hle, List.drop_take, mod_eq_sub]
  have hr : ((input.drop (n / 8 / C.width * C.width)).take (n / 8 % C.width)).length < C.width := by
    rw [List.length_take]
    have := Nat.mod_lt (n / 8) hw; omega
  refine ⟨{ kv with kRoll := (finish C (kv.kRoll, kv.xAccu) (input.take (n / 8)) b).1,
                    xAccu := (finish C (kv.kRoll, kv.xAccu) (input.take (n / 8)) b).2 }, ?_,
    ⟨hs.k, ?_, ?_, hs.yAccu, hs.queue⟩, ⟨rfl, rfl, rfl⟩, rfl, ⟨by simpa using hw, by simpa using h0, rfl⟩⟩
  · have hor : n ≥ C.width * 8 ∨ true = true := Or.inr rfl
    unfold compressRest
    rw [if_pos hor]
    simp only [Option.bind_eq_bind]
    rw [hcb, Option.bind_some, ← hfin]
    rfl
  · rw [hfin]; exact length_rc hC (length_rc hC e1)
  · rw [hfin, lastBlock, Bytes.length_xor, hC.permute_len, e2, Nat.min_self]
    rw [Bytes.length_xor, e1]
    simp only [List.length_append, Bytes.length_zeros, List.length_singleton]
    omega

/-- Absorbing whole blocks of `q ++ e` when `q` completes to a block. -/
theorem eat_full (hC : Valid C) (st : Bytes × Bytes) (q e : Bytes) (hq : q.length < C.width)
    (he : C.width - q.length ≤ e.length) :
    eat C ((q ++ e).length / C.width) st (q ++ e) =
      eat C ((e.drop (C.width - q.length)).length / C.width) (eat C 1 st (q ++ e.take (C.width - q.length)))
        (e.drop (C.width - q.length)) ∧
    (q ++ e).drop ((q ++ e).length / C.width * C.width) =
      (e.drop (C.width - q.length)).drop ((e.drop (C.width - q.length)).length / C.width * C.width) := by
  have hw := hC.width_pos
  have hl : (q ++ e).length / C.width = 1 + (e.drop (C.width - q.length)).length / C.width := by
    rw [List.length_drop, List.length_append, Nat.div_eq_sub_div hw (by omega), Nat.add_comm,
      show q.length + e.length - C.width = e.length - (C.width - q.length) by omega]
  have hd : (q ++ e).drop C.width = e.drop (C.width - q.length) := by
    rw [List.drop_append, List.drop_of_length_le (by omega), List.nil_append]
  have ht : (q ++ e).take C.width = q ++ e.take (C.width - q.length) := by
    rw [List.take_append, List.take_of_length_le (by omega)]
  constructor
  · rw [hl, eat_add, Nat.one_mul, hd]
    congr 1
    rw [← ht, eat_take _ _ _ _ (by omega)]
  · rw [hl, Nat.add_mul, Nat.one_mul, ← List.drop_drop, hd]

theorem queue_full (hC : Valid C) (kv : Inst) (hs : Sized C kv) (q d : Bytes) (hp : Pend C kv q)
    (hd : q.length + d.length = C.width) : Bytes.setAt kv.queue (kv.queueOffset / 8) d = q ++ d := by
  have h1 := take_setAt kv.queue d q.length (by rw [hs.queue]; omega)
  rw [hp.queue, List.take_of_length_le (by rw [Bytes.length_setAt, hs.queue]; omega)] at h1
  rw [hp.offset, show 8 * q.length / 8 = q.length by omega, h1]

/-- When the input completes the queue to a block: the block is compressed and the rest of the function runs. -/
theorem compressQueued_full (hC : Valid C) (kv : Inst) (hs : Sized C kv) (q : Bytes) (hp : Pend C kv q) (input : Bytes)
    (n : Nat) (last : Bool) (hn : 8 * (C.width - q.length) ≤ n) (hm : n / 8 ≤ input.length) :
    compressQueued C kv input n last =
      compressRest C { kv with
          queue := q ++ input.take (C.width - q.length)
          kRoll := (eat C 1 (kv.kRoll, kv.xAccu) (q ++ input.take (C.width - q.length))).1
          xAccu := (eat C 1 (kv.kRoll, kv.xAccu) (q ++ input.take (C.width - q.length))).2
          queueOffset := 0 }
        (input.drop (C.width - q.length)) (n - 8 * (C.width - q.length)) last := by
  have hlt := hp.lt
  have hto : (input.take (C.width - q.length)).length = C.width - q.length := by rw [List.length_take]; omega
  have hbl : min n (C.width * 8 - kv.queueOffset) = 8 * (C.width - q.length) := by rw [hp.offset]; omega
  have hby : (8 * (C.width - q.length) + 7) / 8 = C.width - q.length := by omega
  have hqf := queue_full hC kv hs q (input.take (C.width - q.length)) hp (by omega)
  simp only [compressQueued, hbl, hby, Option.bind_eq_bind]
  rw [SnP.readBuf_some (by omega), Option.bind_some]
  rw [if_pos (by rw [hp.offset]; omega), hqf,
    compressBlocks_false hC _ _ _ _ hs.kRoll hs.xAccu (by rw [hp.offset, List.length_append, hto]; omega), Option.bind_some]
  have e1 : (kv.queueOffset + 8 * (C.width - q.length)) / 8 / C.width = 1 := by
    rw [hp.offset, show (8 * q.length + 8 * (C.width - q.length)) / 8 = C.width by omega, Nat.div_self hC.width_pos]
  rw [e1]

theorem compress_unfold (C : Cfg) (kv : Inst) (hph : kv.phase = .compressing) (input : Bytes) (n : Nat) (last short : Bool)
    (h : ¬ (last = false ∧ n % 8 ≠ 0)) :
    compress C kv input n ⟨false, last, short⟩ =
      if kv.queueOffset ≠ 0 then compressQueued C kv input n last else compressRest C kv input n last := by
  unfold compress
  rw [if_neg h]
  simp only [resetAccu, Bool.false_eq_true, if_false, hph, ne_eq, not_true_eq_false]

theorem padByte_append (q d : Bytes) (bits : Nat) (b : Byte) (h : padByte d bits = some b) : padByte (d ++ q) bits = some b := by
  unfold padByte at h ⊢
  split at h
  · rename_i hb
    rw [if_pos hb]
    cases d with
    | nil => simp at h
    | cons a d => exact h
  · rename_i hb
    rw [if_neg hb]; exact h

/-- A call without the last flag. -/
theorem compress_false (hC : Valid C) (kv : Inst) (hs : Sized C kv) (hph : kv.phase = .compressing) (q : Bytes)
    (hp : Pend C kv q) (input : Bytes) (m : Nat) (hm : m ≤ input.length) (short : Bool) :
    ∃ kv', compress C kv input (8 * m) ⟨false, false, short⟩ = some (0, kv') ∧ Sized C kv' ∧ Frame kv kv' ∧
      (kv'.kRoll, kv'.xAccu) =
        eat C ((q ++ input.take m).length / C.width) (kv.kRoll, kv.xAccu) (q ++ input.take m) ∧
      Pend C kv' ((q ++ input.take m).drop ((q ++ input.take m).length / C.width * C.width)) := by
  have hw := hC.width_pos
  have hlt := hp.lt
  have ht : (input.take m).length = m := by rw [List.length_take]; omega
  rw [compress_unfold C kv hph input (8 * m) false short (by rintro ⟨_, h⟩; omega)]
  by_cases hq : q = []
  · subst hq
    have h0 : kv.queueOffset = 0 := by simpa using hp.offset
    rw [if_neg (by simp [h0])]
    exact compressRest_false hC kv hs h0 input m hm
  · have hql : 0 < q.length := List.length_pos_iff.mpr hq
    rw [if_pos (by rw [hp.offset]; omega)]
    by_cases hfull : C.width - q.length ≤ m
    · rw [compressQueued_full hC kv hs q hp input (8 * m) false (by omega) (by omega)]
      obtain ⟨f1, f2⟩ := eat_full hC (kv.kRoll, kv.xAccu) q (input.take m) hlt (by omega)
      have htt : (input.take m).take (C.width - q.length) = input.take (C.width - q.length) := by
        rw [List.take_take, Nat.min_eq_left hfull]
      have hdt : (input.take m).drop (C.width - q.length) = (input.drop (C.width - q.length)).take (m - (C.width - q.length)) := by
        rw [List.drop_take]
      rw [htt, hdt] at f1
      rw [hdt] at f2
      have hl : (q ++ input.take (C.width - q.length)).length = C.width := by
        rw [List.length_append, List.length_take]; omega
      obtain ⟨e1, e2⟩ := length_eat hC 1 (kv.kRoll, kv.xAccu) (q ++ input.take (C.width - q.length)) hs.kRoll hs.xAccu
        (by rw [hl]; omega)
      rw [show 8 * m - 8 * (C.width - q.length) = 8 * (m - (C.width - q.length)) by omega]
      obtain ⟨kv', g1, g2, g3, g4, g5⟩ := compressRest_false hC { kv with
          queue := q ++ input.take (C.width - q.length)
          kRoll := (eat C 1 (kv.kRoll, kv.xAccu) (q ++ input.take (C.width - q.length))).1
          xAccu := (eat C 1 (kv.kRoll, kv.xAccu) (q ++ input.take (C.width - q.length))).2
          queueOffset := 0 } ⟨hs.k, e1, e2, hs.yAccu, hl⟩ rfl (input.drop (C.width - q.length)) (m - (C.width - q.length))
          (by rw [List.length_drop]; omega)
      refine ⟨kv', g1, g2, ⟨g3.k, g3.yAccu, g3.phase⟩, ?_, ?_⟩
      · rw [f1]; exact g4
      · rw [f2]; exact g5
    · have hbl : min (8 * m) (C.width * 8 - kv.queueOffset) = 8 * m := by rw [hp.offset]; omega
      have hl : (q ++ input.take m).length / C.width = 0 := by
        rw [List.length_append, ht]; exact Nat.div_eq_of_lt (by omega)
      rw [hl, Nat.zero_mul, List.drop_zero]
      refine ⟨{ kv with queue := Bytes.setAt kv.queue q.length (input.take m), queueOffset := 8 * (q.length + m) }, ?_,
        ⟨hs.k, hs.kRoll, hs.xAccu, hs.yAccu, by rw [Bytes.length_setAt]; exact hs.queue⟩, ⟨rfl, rfl, rfl⟩, rfl, ?_⟩
      · simp only [compressQueued, hbl, Option.bind_eq_bind]
        rw [show (8 * m + 7) / 8 = m by omega, SnP.readBuf_some hm, Option.bind_some,
          if_neg (by rw [hp.offset]; omega), Nat.sub_self]
        unfold compressRest
        simp only [hp.offset, ne_eq, not_true_eq_false, if_false, Bool.false_eq_true,
          show 8 * q.length / 8 = q.length by omega, Nat.mul_add]
        rw [if_neg (by rintro (h | h); omega; exact h)]
      · refine ⟨by rw [List.length_append, ht]; omega, by rw [List.length_append, ht], ?_⟩
        have := take_setAt kv.queue (input.take m) q.length (by rw [hs.queue, ht]; omega)
        rw [hp.queue] at this
        rw [List.length_append]; exact this

/-- A call with the last flag; `b` is the last partial byte with the padding bit. -/
theorem compress_true (hC : Valid C) (kv : Inst) (hs : Sized C kv) (hph : kv.phase = .compressing) (q : Bytes)
    (hp : Pend C kv q) (input : Bytes) (n : Nat) (b : Byte) (hm : n / 8 ≤ input.length)
    (hb : padByte (input.drop (n / 8)) (n % 8) = some b) (short : Bool) :
    ∃ kv', compress C kv input n ⟨false, true, short⟩ = some (0, kv') ∧ Sized C kv' ∧ Frame kv kv' ∧
      (kv'.kRoll, kv'.xAccu) = finish C (kv.kRoll, kv.xAccu) (q ++ input.take (n / 8)) b ∧ Pend C kv' [] := by
  have hw := hC.width_pos
  have hlt := hp.lt
  have ht : (input.take (n / 8)).length = n / 8 := by rw [List.length_take]; omega
  rw [compress_unfold C kv hph input n true short (by rintro ⟨h, _⟩; simp at h)]
  by_cases hq : q = []
  · subst hq
    have h0 : kv.queueOffset = 0 := by simpa using hp.offset
    rw [if_neg (by simp [h0])]
    exact compressRest_true hC kv hs h0 input n b hm hb
  · have hql : 0 < q.length := List.length_pos_iff.mpr hq
    rw [if_pos (by rw [hp.offset]; omega)]
    by_cases hfull : 8 * (C.width - q.length) ≤ n
    · rw [compressQueued_full hC kv hs q hp input n true hfull hm]
      obtain ⟨f1, f2⟩ := eat_full hC (kv.kRoll, kv.xAccu) q (input.take (n / 8)) hlt (by omega)
      have htt : (input.take (n / 8)).take (C.width - q.length) = input.take (C.width - q.length) := by
        rw [List.take_take, Nat.min_eq_left (by omega)]
      have hdt : (input.take (n / 8)).drop (C.width - q.length) =
          (input.drop (C.width - q.length)).take ((n - 8 * (C.width - q.length)) / 8) := by
        rw [List.drop_take]; congr 1; omega
      rw [htt, hdt] at f1
      rw [hdt] at f2
      have hl : (q ++ input.take (C.width - q.length)).length = C.width := by
        rw [List.length_append, List.length_take]; omega
      obtain ⟨e1, e2⟩ := length_eat hC 1 (kv.kRoll, kv.xAccu) (q ++ input.take (C.width - q.length)) hs.kRoll hs.xAccu
        (by rw [hl]; omega)
      obtain ⟨kv', g1, g2, g3, g4, g5⟩ := compressRest_true hC { kv with
          queue := q ++ input.take (C.width - q.length)
          kRoll := (eat C 1 (kv.kRoll, kv.xAccu) (q ++ input.take (C.width - q.length))).1
          xAccu := (eat C 1 (kv.kRoll, kv.xAccu) (q ++ input.take (C.width - q.length))).2
          queueOffset := 0 } ⟨hs.k, e1, e2, hs.yAccu, hl⟩ rfl (input.drop (C.width - q.length))
          (n - 8 * (C.width - q.length)) b (by rw [List.length_drop]; omega)
          (by
            rw [List.drop_drop, show C.width - q.length + (n - 8 * (C.width - q.length)) / 8 = n / 8 by omega,
              show (n - 8 * (C.width - q.length)) % 8 = n % 8 by omega]
            exact hb)
      refine ⟨kv', g1, g2, ⟨g3.k, g3.yAccu, g3.phase⟩, ?_, g5⟩
      rw [g4, finish, finish, f1, f2]
    · -- everything fits in the queue
      have hbl : min n (C.width * 8 - kv.queueOffset) = n := by rw [hp.offset]; omega
      have hceil : (n + 7) / 8 ≤ input.length := by
        by_cases h8 : n % 8 = 0
        · omega
        · unfold padByte at hb
          rw [if_pos (by omega)] at hb
          have : 0 < (input.drop (n / 8)).length := by
            cases hd : input.drop (n / 8) with
            | nil => rw [hd] at hb; simp at hb
            | cons a l => simp
          rw [List.length_drop] at this
          omega
      have htc : (input.take ((n + 7) / 8)).length = (n + 7) / 8 := by rw [List.length_take]; omega
      have hQl : (Bytes.setAt kv.queue q.length (input.take ((n + 7) / 8))).length = C.width := by
        rw [Bytes.length_setAt]; exact hs.queue
      have hQ := take_setAt kv.queue (input.take ((n + 7) / 8)) q.length (by rw [hs.queue]; omega)
      rw [hp.queue, htc] at hQ
      have hd8 : (8 * q.length + n) / 8 = q.length + n / 8 := by omega
      have hm8 : (8 * q.length + n) % 8 = n % 8 := by omega
      have hdz : (q.length + n / 8) / C.width = 0 := Nat.div_eq_of_lt (by omega)
      have hmz : (q.length + n / 8) % C.width = q.length + n / 8 := Nat.mod_eq_of_lt (by omega)
      have hQt : (Bytes.setAt kv.queue q.length (input.take ((n + 7) / 8))).take (q.length + n / 8) =
          q ++ input.take (n / 8) := by
        have h1 : (Bytes.setAt kv.queue q.length (input.take ((n + 7) / 8))).take (q.length + n / 8) =
            ((Bytes.setAt kv.queue q.length (input.take ((n + 7) / 8))).take (q.length + (n + 7) / 8)).take
              (q.length + n / 8) := by rw [List.take_take, Nat.min_eq_left (by omega)]
        rw [h1, hQ, List.take_append, List.take_of_length_le (by omega), List.take_take,
          Nat.add_sub_cancel_left, Nat.min_eq_left (by omega)]
      have hbQ : padByte ((Bytes.setAt kv.queue q.length (input.take ((n + 7) / 8))).drop ((8 * q.length + n) / 8))
          ((8 * q.length + n) % 8) = some b := by
        rw [hd8, hm8]
        have h1 : (Bytes.setAt kv.queue q.length (input.take ((n + 7) / 8))).drop (q.length + n / 8) =
            (input.take ((n + 7) / 8)).drop (n / 8) ++
              (Bytes.setAt kv.queue q.length (input.take ((n + 7) / 8))).drop (q.length + (n + 7) / 8) := by
          generalize Bytes.setAt kv.queue q.length (input.take ((n + 7) / 8)) = Q at hQ
          have h2 : Q.drop (q.length + n / 8) = (Q.take (q.length + (n + 7) / 8)).drop (q.length + n / 8) ++
              Q.drop (q.length + (n + 7) / 8) := by
            conv_lhs => rw [← List.take_append_drop (q.length + (n + 7) / 8) Q]
            rw [List.drop_append_of_le_length (by rw [hQ, List.length_append, htc]; omega)]
          rw [h2, hQ, List.drop_append, List.drop_of_length_le (by omega), List.nil_append, Nat.add_sub_cancel_left]
        rw [h1]
        apply padByte_append
        unfold padByte at hb ⊢
        by_cases h8 : n % 8 = 0
        · rw [if_neg (by omega)] at hb ⊢
          exact hb
        · rw [if_pos h8] at hb ⊢
          rw [List.drop_take, show (n + 7) / 8 - n / 8 = 1 by omega]
          cases hd : input.drop (n / 8) with
          | nil => rw [hd] at hb; simp at hb
          | cons a l => rw [hd] at hb; exact hb
      obtain ⟨m', hcb⟩ := compressBlocks_true hC kv.kRoll kv.xAccu
        (Bytes.setAt kv.queue q.length (input.take ((n + 7) / 8))) (8 * q.length + n) b hs.kRoll hs.xAccu
        (by rw [hQl]; omega) hbQ
      rw [hd8, hdz, hmz, Nat.zero_mul, List.drop_zero, hQt] at hcb
      have hfin : finish C (kv.kRoll, kv.xAccu) (q ++ input.take (n / 8)) b =
          lastBlock C (eat C 0 (kv.kRoll, kv.xAccu) (Bytes.setAt kv.queue q.length (input.take ((n + 7) / 8))))
            (q ++ input.take (n / 8)) b := by
        have hl0 : (q ++ input.take (n / 8)).length / C.width = 0 := by rw [List.length_append, ht]; exact hdz
        rw [finish, hl0, Nat.zero_mul, List.drop_zero]; rfl
      rw [← hfin] at hcb
      refine ⟨{ kv with queue := Bytes.setAt kv.queue q.length (input.take ((n + 7) / 8)), queueOffset := 0,
                        kRoll := (finish C (kv.kRoll, kv.xAccu) (q ++ input.take (n / 8)) b).1,
                        xAccu := (finish C (kv.kRoll, kv.xAccu) (q ++ input.take (n / 8)) b).2 }, ?_,
        ⟨hs.k, ?_, ?_, hs.yAccu, hQl⟩, ⟨rfl, rfl, rfl⟩, rfl, ⟨by simpa using hw, rfl, rfl⟩⟩
      · simp only [compressQueued, hbl, Option.bind_eq_bind]
        rw [SnP.readBuf_some hceil, Option.bind_some, if_neg (by rw [hp.offset]; omega)]
        simp only [hp.offset, if_true, show 8 * q.length / 8 = q.length by omega]
        rw [hcb]
        rfl
      · rw [hfin]; exact length_rc hC (length_rc hC hs.kRoll)
      · have hx : (Bytes.xor (kv.kRoll) (q ++ input.take (n / 8) ++ [b] ++
            Bytes.zeros (C.width - ((q ++ input.take (n / 8)).length + 1)))).length = C.width := by
          rw [Bytes.length_xor, hs.kRoll]
          simp only [List.length_append, Bytes.length_zeros, List.length_singleton]
          omega
        rw [hfin, lastBlock, Bytes.length_xor]
        simp only [eat]
        rw [hC.permute_len _ hx, hs.xAccu, Nat.min_self]

end Farfalle
