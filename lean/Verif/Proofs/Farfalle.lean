import Verif.Model.Farfalle
import Verif.Proofs.SpongeSpec
import Verif.Proofs.ByteAccess
import Verif.Proofs.Xoodyak

/-! The block level of Farfalle: the parallel and serial loops compute `eat` and `gen`. -/

namespace Farfalle

open Sponge (repeat_succ')

variable {C : Cfg}

theorem length_rc (hC : Valid C) {k : Bytes} (h : k.length = C.width) : (rc C k).length = C.width :=
  hC.rollc_ok.len k h

theorem length_re (hC : Valid C) {y : Bytes} (h : y.length = C.width) : (re C y).length = C.width :=
  hC.rolle_ok.len y h

theorem length_repeat {f : Bytes → Bytes} {w : Nat} (hf : ∀ x : Bytes, x.length = w → (f x).length = w) (n : Nat)
    {x : Bytes} (h : x.length = w) : (Nat.repeat f n x).length = w := by
  induction n with
  | zero => exact h
  | succ n ih => exact hf _ ih

theorem length_eat (hC : Valid C) : ∀ (n : Nat) (st : Bytes × Bytes) (d : Bytes), st.1.length = C.width →
    st.2.length = C.width → n * C.width ≤ d.length → (eat C n st d).1.length = C.width ∧ (eat C n st d).2.length = C.width := by
  intro n
  induction n with
  | zero => intro st d h1 h2 _; exact ⟨h1, h2⟩
  | succ n ih =>
    intro st d h1 h2 hd
    rw [Nat.add_mul] at hd
    have hw := hC.width_pos
    refine ih _ _ (length_rc hC h1) ?_ ?_
    · rw [Bytes.length_xor, hC.permute_len _ ?_, h2, Nat.min_self]
      rw [Bytes.length_xor, h1, List.length_take]; omega
    · rw [List.length_drop]; omega

theorem eat_add : ∀ (a b : Nat) (st : Bytes × Bytes) (d : Bytes),
    eat C (a + b) st d = eat C b (eat C a st d) (d.drop (a * C.width)) := by
  intro a
  induction a with
  | zero => intro b st d; simp [eat]
  | succ a ih =>
    intro b st d
    rw [Nat.add_right_comm, eat, ih, eat, List.drop_drop]
    congr 2
    rw [Nat.add_mul]; omega

theorem eat_fst : ∀ (n : Nat) (st : Bytes × Bytes) (d : Bytes), (eat C n st d).1 = Nat.repeat (rc C) n st.1 := by
  intro n
  induction n with
  | zero => intro st d; rfl
  | succ n ih => intro st d; rw [eat, ih, repeat_succ']

/-- `eat` only looks at the blocks it absorbs. -/
theorem eat_take : ∀ (n : Nat) (st : Bytes × Bytes) (d : Bytes) (m : Nat), n * C.width ≤ m →
    eat C n st (d.take m) = eat C n st d := by
  intro n
  induction n with
  | zero => intro st d m _; rfl
  | succ n ih =>
    intro st d m h
    rw [Nat.add_mul] at h
    have h2 := ih (rc C st.1, Bytes.xor st.2 (C.permute (Bytes.xor st.1 (d.take C.width)))) (d.drop C.width)
      (m - C.width) (by omega)
    rw [eat, eat, List.take_take, Nat.min_eq_left (by omega), List.drop_take, h2]

theorem length_gen (hC : Valid C) {kRoll : Bytes} (hk : kRoll.length = C.width) : ∀ (n : Nat) (y : Bytes),
    y.length = C.width → (gen C kRoll n y).length = n * C.width := by
  intro n
  induction n with
  | zero => intro y _; simp [gen]
  | succ n ih =>
    intro y hy
    rw [gen, List.length_append, ih _ (length_re hC hy), Bytes.length_xor, hC.permute_len _ hy, hk, Nat.add_mul]
    omega

theorem gen_add (kRoll : Bytes) : ∀ (a b : Nat) (y : Bytes),
    gen C kRoll (a + b) y = gen C kRoll a y ++ gen C kRoll b (Nat.repeat (re C) a y) := by
  intro a
  induction a with
  | zero => intro b y; simp [gen, Nat.repeat]
  | succ a ih => intro b y; rw [Nat.add_right_comm, gen, ih, gen, List.append_assoc, repeat_succ']

theorem setAt_all (s d : Bytes) (h : d.length = s.length) : Bytes.setAt s 0 d = d := by
  apply List.ext_getElem?; intro i
  rw [Bytes.getElem?_setAt]
  by_cases hi : i < s.length
  · rw [List.getElem?_eq_getElem hi, List.getElem?_eq_getElem (by omega)]
    simp [h, hi, List.getD_eq_getElem?_getD]
  · rw [List.getElem?_eq_none (by omega), List.getElem?_eq_none (by omega)]; rfl

theorem setAt_two (s a b : Bytes) (h : a.length + b.length = s.length) :
    Bytes.setAt (Bytes.setAt s 0 a) a.length b = a ++ b := by
  have := Bytes.setAt_append s 0 a b
  rw [Nat.zero_add] at this
  rw [this, setAt_all _ _ (by simp [h])]

theorem overwrite_all {d : Bytes} (hC : Valid C) (h : d.length = C.width) :
    SnP.overwriteBytes C.junk d 0 = some d := by
  rw [SnP.overwriteBytes, if_pos (by rw [hC.junk_len]; omega), setAt_all _ _ (by rw [hC.junk_len, h])]

theorem readBuf_all {d : Bytes} {n : Nat} (h : d.length = n) : SnP.readBuf d n = some d := by
  rw [SnP.readBuf_some (by omega), List.take_of_length_le (by omega)]

theorem add_all {s d : Bytes} (h : d.length = s.length) : SnP.addBytes s d 0 = some (Bytes.xor s d) := by
  rw [Xoodyak.addBytes_some (by omega), Bytes.xorAt_zero_all _ _ h]; rfl

theorem extractAdd_all {s d : Bytes} (h : d.length = s.length) : SnP.extractAndAddBytes s d 0 = some (Bytes.xor d s) := by
  rw [SnP.extractAndAddBytes, if_pos (by omega), Bytes.slice, List.drop_zero, List.take_of_length_le (by omega)]

/-- After rolling `P` times, the states loaded from `encbuf` are the masks rolled 0, 1, ..., `P - 1` times. -/
theorem loadStates_eq (hC : Valid C) {f : Bytes → Nat → Bytes × Bytes} {off size : Nat} (hf : RollOk f C.width off size)
    (k : Bytes) (hk : k.length = C.width) (P : Nat) : ∀ n i, i + n ≤ P →
    loadStates C (f k P).1 (f k P).2 off size n i =
      some ((List.range' i n).map fun j => Nat.repeat (fun x => (f x 1).1) j k) := by
  have hlen : ∀ j, (Nat.repeat (fun x => (f x 1).1) j k).length = C.width := fun j => length_repeat hf.len j hk
  have hfix : ∀ j, (Nat.repeat (fun x => (f x 1).1) j k).take off = k.take off := by
    intro j
    induction j with
    | zero => rfl
    | succ j ih => rw [Nat.repeat, hf.fixed _ (hlen j), ih]
  have hos := hf.off_size
  intro n
  induction n with
  | zero => intro i _; rfl
  | succ n ih =>
    intro i hi
    have hl1 : ((f k P).1).length = C.width := by rw [hf.iter _ _ hk]; exact hlen P
    have e1 : ((f k P).1).take off = k.take off := by rw [hf.iter _ _ hk]; exact hfix P
    have e2 : SnP.readBuf ((f k P).2.drop (i * size)) size = some ((Nat.repeat (fun x => (f x 1).1) i k).drop off) := by
      rw [SnP.readBuf_some, ← hf.enc k P i hk (by omega)]
      · rfl
      · rw [List.length_drop, hf.enc_len _ _ hk]
        have : (i + 1) * size ≤ P * size := Nat.mul_le_mul_right _ (by omega)
        rw [Nat.add_mul] at this; omega
    have hto : (k.take off).length = off := by rw [List.length_take]; omega
    have hdo : ((Nat.repeat (fun x => (f x 1).1) i k).drop off).length = size := by
      rw [List.length_drop, hlen]; omega
    have e3 : SnP.overwriteBytes C.junk (k.take off) 0 = some (Bytes.setAt C.junk 0 (k.take off)) := by
      rw [SnP.overwriteBytes, if_pos (by rw [hC.junk_len]; omega)]
    have e4 : SnP.overwriteBytes (Bytes.setAt C.junk 0 (k.take off)) ((Nat.repeat (fun x => (f x 1).1) i k).drop off) off
        = some (Nat.repeat (fun x => (f x 1).1) i k) := by
      rw [SnP.overwriteBytes, if_pos (by rw [Bytes.length_setAt, hC.junk_len]; omega)]
      have := setAt_two C.junk (k.take off) ((Nat.repeat (fun x => (f x 1).1) i k).drop off)
        (by rw [hC.junk_len]; omega)
      rw [hto] at this
      rw [this, ← hfix i, List.take_append_drop]
    simp only [loadStates, Option.bind_eq_bind]
    rw [SnP.readBuf_some (by omega), e1, Option.bind_some, e3, Option.bind_some, e2, Option.bind_some, e4, Option.bind_some,
      ih (i + 1) (by omega), Option.bind_some, List.range'_succ, List.map_cons]

theorem addMessage_eq (hC : Valid C) (k message : Bytes) (hk : k.length = C.width) : ∀ n i,
    (i + n) * C.width ≤ message.length →
    ∃ ss, addMessage C message i ((List.range' i n).map fun j => Nat.repeat (rc C) j k) = some ss ∧
      ∀ x : Bytes, x.length = C.width →
        accumulate C x (ss.map C.permute) =
          some (eat C n (Nat.repeat (rc C) i k, x) (message.drop (i * C.width))).2 := by
  intro n
  induction n with
  | zero => intro i _; exact ⟨[], rfl, fun x _ => rfl⟩
  | succ n ih =>
    intro i hi
    obtain ⟨ss, h1, h2⟩ := ih (i + 1) (by rw [show i + 1 + n = i + (n + 1) by omega]; exact hi)
    have hlen : (Nat.repeat (rc C) i k).length = C.width := length_repeat (fun x h => length_rc hC h) i hk
    have hi' : i * C.width + (n * C.width + C.width) ≤ message.length := by
      rw [← Nat.succ_mul, ← Nat.add_mul]; exact hi
    have hm : ((message.drop (i * C.width)).take C.width).length = C.width := by
      rw [List.length_take, List.length_drop]; omega
    have hx : (Bytes.xor (Nat.repeat (rc C) i k) ((message.drop (i * C.width)).take C.width)).length = C.width := by
      rw [Bytes.length_xor, hlen, hm, Nat.min_self]
    refine ⟨Bytes.xor (Nat.repeat (rc C) i k) ((message.drop (i * C.width)).take C.width) :: ss, ?_, ?_⟩
    · simp only [List.range'_succ, List.map_cons, addMessage, Option.bind_eq_bind]
      rw [SnP.readBuf_some (by rw [List.length_drop]; omega),
        Option.bind_some, add_all (by rw [hm, hlen]), Option.bind_some, h1]
      rfl
    · intro x hxl
      have hp := hC.permute_len _ hx
      simp only [List.map_cons, accumulate, Option.bind_eq_bind]
      rw [readBuf_all hxl, Option.bind_some,
        extractAdd_all (by rw [hxl, hp]), Option.bind_some, h2 _ (by rw [Bytes.length_xor, hp, hxl, Nat.min_self]),
        eat, List.drop_drop, Nat.add_mul, Nat.one_mul]
      rfl

/-- The position after `n` blocks. -/
def adv (C : Cfg) (n : Nat) (k x message : Bytes) (len : Nat) : Bytes × Bytes × Bytes × Nat :=
  ((eat C n (k, x) message).1, (eat C n (k, x) message).2, message.drop (n * C.width), len - n * C.width)

theorem adv_adv (a b : Nat) (k x m : Bytes) (len : Nat) :
    adv C b (adv C a k x m len).1 (adv C a k x m len).2.1 (adv C a k x m len).2.2.1 (adv C a k x m len).2.2.2 =
      adv C (a + b) k x m len := by
  simp only [adv, eat_add, List.drop_drop, Nat.add_mul, Nat.sub_sub]

theorem adv_zero (k x m : Bytes) (len : Nat) : adv C 0 k x m len = (k, x, m, len) := by simp [adv, eat]

theorem compressPl_eq (hC : Valid C) {P : Nat} (hP : 0 < P) : ∀ fuel k x message len, len < fuel →
    k.length = C.width → x.length = C.width → len ≤ message.length →
    compressPl C P fuel k x message len = some (adv C (len / (P * C.width) * P) k x message len) := by
  intro fuel
  have hw := hC.width_pos
  have hPw : 0 < P * C.width := Nat.mul_pos hP hw
  induction fuel with
  | zero => intro k x message len h; omega
  | succ fuel ih =>
    intro k x message len hf hk hx hm
    rw [compressPl]
    by_cases hl : len ≥ P * C.width
    · obtain ⟨ss, h1, h2⟩ := addMessage_eq hC k message hk P 0 (by rw [Nat.zero_add]; omega)
      have h1' : addMessage C message 0 ((List.range' 0 P).map fun j => Nat.repeat (fun x => (C.rollc x 1).1) j k) = some ss :=
        h1
      obtain ⟨e1, e2⟩ := length_eat hC P (k, x) message hk hx (by omega)
      have hdiv : len / (P * C.width) = (len - P * C.width) / (P * C.width) + 1 := by
        rw [Nat.div_eq_sub_div hPw hl]
      rw [if_pos hl]
      simp only [Option.bind_eq_bind]
      rw [loadStates_eq hC hC.rollc_ok k hk P P 0 (by omega), Option.bind_some, h1',
        Option.bind_some, h2 x hx, Option.bind_some, hC.rollc_ok.iter _ _ hk]
      have e3 : Nat.repeat (fun x => (C.rollc x 1).1) P k = (eat C P (k, x) message).1 := by rw [eat_fst]; rfl
      simp only [Nat.zero_mul, List.drop_zero, Nat.repeat]
      rw [e3, ih _ _ _ _ (by omega) e1 e2 (by rw [List.length_drop]; omega), hdiv, Nat.add_mul, Nat.one_mul,
        Nat.add_comm _ P, ← adv_adv]
      rfl
    · rw [if_neg hl, Nat.div_eq_of_lt (by omega), Nat.zero_mul, adv_zero]

theorem compressFast_eq {P : Nat} {F G} (hF : PathOk C (.fast P F G)) (k x message : Bytes) (len : Nat)
    (hk : k.length = C.width) (hx : x.length = C.width) (hm : len ≤ message.length) :
    compressFast C P F k x message len = some (adv C (len / (P * C.width) * P) k x message len) := by
  obtain ⟨_, hF, _⟩ := hF
  rw [compressFast]
  by_cases hl : len ≥ P * C.width
  · have ht : (message.take len).length = len := by rw [List.length_take]; omega
    simp only [if_pos hl, Option.bind_eq_bind]
    rw [SnP.readBuf_some hm, Option.bind_some, hF _ _ _ hk hx (by rw [ht]; exact hl), ht,
      eat_take _ _ _ _ (by rw [Nat.mul_assoc]; exact Nat.div_mul_le_self _ _)]
    rfl
  · rw [if_neg hl, Nat.div_eq_of_lt (by omega), Nat.zero_mul, adv_zero]

theorem compressPaths_eq (hC : Valid C) : ∀ (ps : List Path), (∀ p ∈ ps, PathOk C p) → ∀ k x message len,
    k.length = C.width → x.length = C.width → len ≤ message.length →
    ∃ n, n * C.width ≤ len ∧ compressPaths C ps k x message len = some (adv C n k x message len) := by
  intro ps
  induction ps with
  | nil => intro _ k x m len _ _ _; exact ⟨0, by omega, by rw [adv_zero]; rfl⟩
  | cons p ps ih =>
    intro hp k x m len hk hx hm
    have hok := hp p (by simp)
    have step : ∃ n, n * C.width ≤ len ∧ compressPaths C (p :: ps) k x m len =
        compressPaths C ps (adv C n k x m len).1 (adv C n k x m len).2.1 (adv C n k x m len).2.2.1
          (adv C n k x m len).2.2.2 := by
      cases p with
      | plSnP P =>
        refine ⟨len / (P * C.width) * P, ?_, ?_⟩
        · rw [Nat.mul_assoc]; exact Nat.div_mul_le_self _ _
        · simp only [compressPaths, Option.bind_eq_bind]
          rw [compressPl_eq hC hok _ _ _ _ _ (by omega) hk hx hm, Option.bind_some]
      | fast P F G =>
        refine ⟨len / (P * C.width) * P, ?_, ?_⟩
        · rw [Nat.mul_assoc]; exact Nat.div_mul_le_self _ _
        · simp only [compressPaths, Option.bind_eq_bind]
          rw [compressFast_eq hok _ _ _ _ hk hx hm, Option.bind_some]
    obtain ⟨n, h1, h2⟩ := step
    obtain ⟨e1, e2⟩ := length_eat hC n (k, x) m hk hx (by omega)
    obtain ⟨n', h3, h4⟩ := ih (fun q hq => hp q (by simp [hq])) (adv C n k x m len).1 (adv C n k x m len).2.1
      (adv C n k x m len).2.2.1 (adv C n k x m len).2.2.2 e1 e2 (by simp only [adv, List.length_drop]; omega)
    refine ⟨n + n', ?_, ?_⟩
    · simp only [adv] at h3
      rw [Nat.add_mul]; omega
    · rw [h2, h4, adv_adv]

theorem compressSingle_eq (hC : Valid C) : ∀ fuel k x message len, len < fuel →
    k.length = C.width → x.length = C.width → len ≤ message.length →
    compressSingle C fuel k x message len = some (adv C (len / C.width) k x message len) := by
  intro fuel
  have hw := hC.width_pos
  induction fuel with
  | zero => intro k x message len h; omega
  | succ fuel ih =>
    intro k x message len hf hk hx hm
    rw [compressSingle]
    by_cases hl : len ≥ C.width
    · obtain ⟨e1, e2⟩ := length_eat hC 1 (k, x) message hk hx (by omega)
      have hm' : (message.take C.width).length = C.width := by rw [List.length_take]; omega
      have hxl : (Bytes.xor k (message.take C.width)).length = C.width := by rw [Bytes.length_xor, hk, hm', Nat.min_self]
      simp only [if_pos hl, Option.bind_eq_bind]
      rw [readBuf_all hk, Option.bind_some, overwrite_all hC hk, Option.bind_some]
      rw [SnP.readBuf_some (by omega), Option.bind_some, add_all (by rw [hm', hk]), Option.bind_some, readBuf_all hx, Option.bind_some,
        extractAdd_all (by rw [hx, hC.permute_len _ hxl]), Option.bind_some]
      have hdiv : len / C.width = 1 + (len - C.width) / C.width := by
        rw [Nat.div_eq_sub_div hw hl]; omega
      have := ih (eat C 1 (k, x) message).1 (eat C 1 (k, x) message).2 (message.drop C.width) (len - C.width) (by omega)
        e1 e2 (by rw [List.length_drop]; omega)
      rw [hdiv, ← adv_adv]
      simp only [adv, Nat.one_mul] at this ⊢
      exact this
    · rw [if_neg hl, Nat.div_eq_of_lt (by omega), adv_zero]

/-- The last block: the rest of the string and the byte `b` with the last bits and the padding bit. -/
def lastBlock (C : Cfg) (st : Bytes × Bytes) (rest : Bytes) (b : Byte) : Bytes × Bytes :=
  (rc C (rc C st.1), Bytes.xor st.2 (C.permute (Bytes.xor st.1 (rest ++ [b] ++ Bytes.zeros (C.width - (rest.length + 1))))))

theorem xorAt_padded (s rest : Bytes) (b : Byte) (h : rest.length < s.length) :
    Bytes.xorAt (Bytes.xorAt s 0 rest) rest.length [b] =
      Bytes.xor s (rest ++ [b] ++ Bytes.zeros (s.length - (rest.length + 1))) := by
  have h1 := Bytes.xorAt_append s 0 rest [b]
  rw [Nat.zero_add] at h1
  have h2 := Bytes.xorAt_append s 0 (rest ++ [b]) (Bytes.zeros (s.length - (rest.length + 1)))
  rw [Sponge.xorAt_zeros] at h2
  rw [h1, h2, Bytes.xorAt_zero_all _ _ (by simp; omega)]
  rfl

theorem compressLast_eq (hC : Valid C) (k x message : Bytes) (len bits : Nat) (b : Byte) (hk : k.length = C.width)
    (hx : x.length = C.width) (hm : len ≤ message.length) (hl : len < C.width)
    (hb : padByte (message.drop len) bits = some b) :
    ∃ m', compressLast C k x message len bits = some ((lastBlock C (k, x) (message.take len) b).1,
      (lastBlock C (k, x) (message.take len) b).2, m') := by
  have ht : (message.take len).length = len := by rw [List.length_take]; omega
  refine ⟨if bits ≠ 0 then (message.drop len).drop 1 else message.drop len, ?_⟩
  have hxl : (Bytes.xor k (message.take len ++ [b] ++ Bytes.zeros (C.width - (len + 1)))).length = C.width := by
    simp [hk, hm]; omega
  simp only [compressLast, Option.bind_eq_bind]
  rw [readBuf_all hk, Option.bind_some, overwrite_all hC hk, Option.bind_some]
  have hpad := xorAt_padded k (message.take len) b (by omega)
  rw [ht, hk] at hpad
  rw [SnP.readBuf_some hm, Option.bind_some, Xoodyak.addBytes_some (by omega), Option.bind_some, hb, Option.bind_some, Xoodyak.addByte_some (by rw [Bytes.length_xorAt]; omega),
    Option.bind_some, readBuf_all hx, Option.bind_some, hpad,
    extractAdd_all (by rw [hx, hC.permute_len _ hxl]), Option.bind_some]
  simp only [lastBlock, ht]
  rfl

theorem div_mul_mod (len w : Nat) (n : Nat) (h : n * w ≤ len) (hw : 0 < w) : n + (len - n * w) / w = len / w := by
  obtain ⟨c, rfl⟩ := Nat.exists_eq_add_of_le h
  rw [Nat.add_sub_cancel_left, Nat.mul_comm n w, Nat.mul_add_div hw]

/-- `Kra_Compress` without the last flag. -/
theorem compressBlocks_false (hC : Valid C) (k x message : Bytes) (bits : Nat) (hk : k.length = C.width)
    (hx : x.length = C.width) (hm : bits / 8 ≤ message.length) :
    compressBlocks C k x message bits false =
      some ((eat C (bits / 8 / C.width) (k, x) message).1, (eat C (bits / 8 / C.width) (k, x) message).2,
        message.drop (bits / 8 / C.width * C.width), bits % (C.width * 8)) := by
  have hw := hC.width_pos
  obtain ⟨n, h1, h2⟩ := compressPaths_eq hC C.paths hC.paths_ok k x message (bits / 8) hk hx hm
  obtain ⟨e1, e2⟩ := length_eat hC n (k, x) message hk hx (by omega)
  simp only [compressBlocks, Option.bind_eq_bind]
  rw [h2, Option.bind_some]
  rw [compressSingle_eq hC _ (adv C n k x message (bits / 8)).1 (adv C n k x message (bits / 8)).2.1
    (adv C n k x message (bits / 8)).2.2.1 (adv C n k x message (bits / 8)).2.2.2 (Nat.lt_succ_self _) e1 e2
    (by simp only [adv, List.length_drop]; omega), adv_adv,
    Option.bind_some]
  have e5 : n + (adv C n k x message (bits / 8)).2.2.2 / C.width = bits / 8 / C.width := div_mul_mod _ _ _ h1 hw
  rw [e5]
  rfl

/-- `Kra_Compress` with the last flag. -/
theorem compressBlocks_true (hC : Valid C) (k x message : Bytes) (bits : Nat) (b : Byte) (hk : k.length = C.width)
    (hx : x.length = C.width) (hm : bits / 8 ≤ message.length)
    (hb : padByte (message.drop (bits / 8)) (bits % 8) = some b) :
    ∃ m', compressBlocks C k x message bits true =
      some ((lastBlock C (eat C (bits / 8 / C.width) (k, x) message)
          ((message.drop (bits / 8 / C.width * C.width)).take (bits / 8 % C.width)) b).1,
        (lastBlock C (eat C (bits / 8 / C.width) (k, x) message)
          ((message.drop (bits / 8 / C.width * C.width)).take (bits / 8 % C.width)) b).2, m', 0) := by
  have hw := hC.width_pos
  obtain ⟨n, h1, h2⟩ := compressPaths_eq hC C.paths hC.paths_ok k x message (bits / 8) hk hx hm
  obtain ⟨e1, e2⟩ := length_eat hC n (k, x) message hk hx (by omega)
  have hle : bits / 8 / C.width * C.width ≤ bits / 8 := Nat.div_mul_le_self _ _
  obtain ⟨e3, e4⟩ := length_eat hC (bits / 8 / C.width) (k, x) message hk hx (by omega)
  have hsub : bits / 8 - bits / 8 / C.width * C.width = bits / 8 % C.width := by
    have := Nat.mod_add_div (bits / 8) C.width
    rw [Nat.mul_comm] at this; omega
  have hmod : bits % (C.width * 8) % 8 = bits % 8 := Nat.mod_mul_left_mod _ _ _
  obtain ⟨m', h3⟩ := compressLast_eq hC (eat C (bits / 8 / C.width) (k, x) message).1
    (eat C (bits / 8 / C.width) (k, x) message).2 (message.drop (bits / 8 / C.width * C.width)) (bits / 8 % C.width)
    (bits % 8) b e3 e4 (by rw [List.length_drop]; omega) (Nat.mod_lt _ hw)
    (by rw [List.drop_drop, show bits / 8 / C.width * C.width + bits / 8 % C.width = bits / 8 by omega]; exact hb)
  refine ⟨m', ?_⟩
  simp only [compressBlocks, Option.bind_eq_bind]
  rw [h2, Option.bind_some]
  rw [compressSingle_eq hC _ (adv C n k x message (bits / 8)).1 (adv C n k x message (bits / 8)).2.1
    (adv C n k x message (bits / 8)).2.2.1 (adv C n k x message (bits / 8)).2.2.2 (Nat.lt_succ_self _) e1 e2
    (by simp only [adv, List.length_drop]; omega), adv_adv,
    Option.bind_some]
  have e5 : n + (adv C n k x message (bits / 8)).2.2.2 / C.width = bits / 8 / C.width := div_mul_mod _ _ _ h1 hw
  rw [e5]
  simp only [adv, hsub, hmod, if_true]
  rw [h3]
  rfl

end Farfalle
