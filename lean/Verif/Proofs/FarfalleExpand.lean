import Verif.Proofs.FarfalleCompress

/-! `Vatte` / `Xoofff_Expand`: the effect of one call. -/

namespace Farfalle

open Sponge (repeat_succ')

variable {C : Cfg}

/-- The output block for the accumulator `y`. -/
def blk (C : Cfg) (kRoll y : Bytes) : Bytes := Bytes.xor kRoll (C.permute y)

theorem length_blk (hC : Valid C) {kRoll y : Bytes} (hk : kRoll.length = C.width) (hy : y.length = C.width) :
    (blk C kRoll y).length = C.width := by
  rw [blk, Bytes.length_xor, hk, hC.permute_len y hy, Nat.min_self]

/-- Number of blocks needed for `a` bytes. -/
def nblk (w a : Nat) : Nat := a / w + if a % w = 0 then 0 else 1

theorem xor_take (a b : Bytes) (n : Nat) : Bytes.xor (a.take n) (b.take n) = (Bytes.xor a b).take n := by
  unfold Bytes.xor; rw [List.take_zipWith]

theorem xor_drop (a b : Bytes) (n : Nat) : Bytes.xor (a.drop n) (b.drop n) = (Bytes.xor a b).drop n := by
  unfold Bytes.xor; rw [List.drop_zipWith]

theorem expandBlock_eq (hC : Valid C) (kRoll y : Bytes) (len : Nat) (hk : kRoll.length = C.width) (hy : y.length = C.width)
    (hl : len ≤ C.width) :
    expandBlock C kRoll y len = some (C.permute y, re C y, (blk C kRoll y).take len) := by
  have hp := hC.permute_len y hy
  simp only [expandBlock, Option.bind_eq_bind]
  rw [readBuf_all hy, Option.bind_some, overwrite_all hC hy, Option.bind_some, SnP.readBuf_some (by omega), Option.bind_some]
  have ht : (kRoll.take len).length = len := by rw [List.length_take]; omega
  have : SnP.extractAndAddBytes (C.permute y) (kRoll.take len) 0 = some ((blk C kRoll y).take len) := by
    rw [SnP.extractAndAddBytes, if_pos (by omega), ht, Bytes.slice, List.drop_zero, xor_take]; rfl
  rw [this]; rfl

theorem gen_take_succ (hC : Valid C) (kRoll y : Bytes) (hk : kRoll.length = C.width) (hy : y.length = C.width) (len n : Nat)
    (h : C.width ≤ len) :
    (gen C kRoll (n + 1) y).take len = blk C kRoll y ++ (gen C kRoll n (re C y)).take (len - C.width) := by
  rw [gen, List.take_append]
  have := length_blk hC hk hy
  unfold blk at this
  rw [this, List.take_of_length_le (by omega)]; rfl

theorem gen_take_small (hC : Valid C) (kRoll y : Bytes) (hk : kRoll.length = C.width) (hy : y.length = C.width) (len n : Nat)
    (h : len ≤ C.width) : (gen C kRoll (n + 1) y).take len = (blk C kRoll y).take len := by
  rw [gen, List.take_append]
  have := length_blk hC hk hy
  unfold blk at this
  rw [this, show len - C.width = 0 by omega, List.take_zero, List.append_nil]; rfl

theorem expandPl_eq (hC : Valid C) {P : Nat} (hP : 0 < P) (kRoll : Bytes) (hk : kRoll.length = C.width) :
    ∀ fuel y len, len < fuel → y.length = C.width →
    expandPl C P kRoll fuel y len = some (Nat.repeat (re C) (len / (P * C.width) * P) y,
      gen C kRoll (len / (P * C.width) * P) y, len - len / (P * C.width) * P * C.width) := by
  intro fuel
  have hw := hC.width_pos
  have hPw : 0 < P * C.width := Nat.mul_pos hP hw
  induction fuel with
  | zero => intro y len h; omega
  | succ fuel ih =>
    intro y len hf hy
    unfold expandPl
    by_cases hl : len ≥ P * C.width
    · rw [if_pos hl]
      simp only [Option.bind_eq_bind]
      rw [loadStates_eq hC hC.rolle_ok y hy P P 0 (by omega), Option.bind_some]
      have hem : ∀ n i, emit C kRoll (((List.range' i n).map fun j => Nat.repeat (fun x => (C.rolle x 1).1) j y).map C.permute) =
          some (gen C kRoll n (Nat.repeat (re C) i y)) := by
        intro n
        induction n with
        | zero => intro i; rfl
        | succ n ihn =>
          intro i
          have hyi : (Nat.repeat (re C) i y).length = C.width := length_repeat hC.rolle_ok.len i hy
          rw [List.range'_succ, List.map_cons, List.map_cons, emit]
          simp only [Option.bind_eq_bind]
          rw [readBuf_all hk, Option.bind_some]
          have he : SnP.extractAndAddBytes (C.permute (Nat.repeat (fun x => (C.rolle x 1).1) i y)) kRoll 0 =
              some (blk C kRoll (Nat.repeat (re C) i y)) :=
            extractAdd_all (by rw [hk]; exact (hC.permute_len _ hyi).symm)
          rw [he, Option.bind_some, ihn (i + 1), Option.bind_some]
          rfl
      rw [hem P 0, Option.bind_some, hC.rolle_ok.iter y P hy]
      have hyP : (Nat.repeat (re C) P y).length = C.width := length_repeat hC.rolle_ok.len P hy
      change ((expandPl C P kRoll fuel (Nat.repeat (re C) P y) (len - P * C.width)).bind _) = _
      rw [ih _ _ (by omega) hyP, Option.bind_some]
      have hdiv : len / (P * C.width) = 1 + (len - P * C.width) / (P * C.width) := by
        rw [Nat.div_eq_sub_div hPw hl, Nat.add_comm]
      rw [hdiv, Nat.add_mul, Nat.one_mul, gen_add, Nat.add_mul, Nat.sub_sub]
      have hrep : ∀ a b (z : Bytes), Nat.repeat (re C) (a + b) z = Nat.repeat (re C) b (Nat.repeat (re C) a z) := by
        intro a b
        induction b with
        | zero => intro z; rfl
        | succ b ihb => intro z; rw [← Nat.add_assoc]; simp only [Nat.repeat]; rw [ihb]
      rw [hrep]
      rfl
    · rw [if_neg hl, Nat.div_eq_of_lt (by omega), Nat.zero_mul, Nat.zero_mul]; rfl

theorem repeat_add (f : Bytes → Bytes) : ∀ a b (z : Bytes), Nat.repeat f (a + b) z = Nat.repeat f b (Nat.repeat f a z) := by
  intro a b
  induction b with
  | zero => intro z; rfl
  | succ b ihb => intro z; rw [← Nat.add_assoc]; simp only [Nat.repeat]; rw [ihb]

theorem expandFast_eq {P : Nat} {F G} (hC : Valid C) (hF : PathOk C (.fast P F G)) (kRoll y : Bytes) (len : Nat)
    (hk : kRoll.length = C.width) (hy : y.length = C.width) :
    expandFast C P G kRoll y len = some (Nat.repeat (re C) (len / (P * C.width) * P) y,
      gen C kRoll (len / (P * C.width) * P) y, len - len / (P * C.width) * P * C.width) := by
  obtain ⟨_, _, hG⟩ := hF
  rw [expandFast]
  by_cases hl : len ≥ P * C.width
  · rw [if_pos hl, hG y kRoll len hy hk hl]
    simp only
    rw [length_gen hC hk _ _ hy]
  · rw [if_neg hl, Nat.div_eq_of_lt (by omega), Nat.zero_mul, Nat.zero_mul]; rfl

theorem expandPaths_eq (hC : Valid C) (kRoll : Bytes) (hk : kRoll.length = C.width) : ∀ (ps : List Path),
    (∀ p ∈ ps, PathOk C p) → ∀ y len, y.length = C.width →
    ∃ n, n * C.width ≤ len ∧ expandPaths C kRoll ps y len =
      some (Nat.repeat (re C) n y, gen C kRoll n y, len - n * C.width) := by
  intro ps
  induction ps with
  | nil => intro _ y len _; exact ⟨0, by omega, by rw [Nat.zero_mul]; rfl⟩
  | cons p ps ih =>
    intro hps y len hy
    have hle : ∀ P, len / (P * C.width) * P * C.width ≤ len := by
      intro P; rw [Nat.mul_assoc]; exact Nat.div_mul_le_self _ _
    have key : ∀ P, ∃ n, n * C.width ≤ len ∧
        ((expandPaths C kRoll ps (Nat.repeat (re C) (len / (P * C.width) * P) y) (len - len / (P * C.width) * P * C.width)).bind
          fun r => some (r.1, gen C kRoll (len / (P * C.width) * P) y ++ r.2.1, r.2.2)) =
          some (Nat.repeat (re C) n y, gen C kRoll n y, len - n * C.width) := by
      intro P
      have hl := hle P
      obtain ⟨n, h1, h2⟩ := ih (fun q hq => hps q (List.mem_cons_of_mem _ hq))
        (Nat.repeat (re C) (len / (P * C.width) * P) y) (len - len / (P * C.width) * P * C.width)
        (length_repeat hC.rolle_ok.len _ hy)
      refine ⟨len / (P * C.width) * P + n, by rw [Nat.add_mul]; omega, ?_⟩
      rw [h2, Option.bind_some, repeat_add, gen_add, Nat.add_mul, Nat.sub_sub]
    have hp := hps p List.mem_cons_self
    cases p with
    | plSnP P =>
      obtain ⟨n, h1, h2⟩ := key P
      refine ⟨n, h1, ?_⟩
      rw [expandPaths]
      simp only [Option.bind_eq_bind]
      rw [expandPl_eq hC hp kRoll hk (len + 1) y len (by omega) hy, Option.bind_some]
      exact h2
    | fast P F G =>
      obtain ⟨n, h1, h2⟩ := key P
      refine ⟨n, h1, ?_⟩
      rw [expandPaths]
      simp only [Option.bind_eq_bind]
      rw [expandFast_eq hC hp kRoll y len hk hy, Option.bind_some]
      exact h2

/-- The `do` loop of `Vatte`. -/
theorem expandDo_eq (hC : Valid C) (kRoll : Bytes) (hk : kRoll.length = C.width) : ∀ fuel y len, len < fuel → 0 < len →
    y.length = C.width →
    expandDo C kRoll fuel y len = some (C.permute (Nat.repeat (re C) ((len - 1) / C.width) y),
      Nat.repeat (re C) ((len - 1) / C.width + 1) y, (gen C kRoll (len / C.width + 1) y).take len,
      (len - 1) % C.width + 1) := by
  intro fuel
  have hw := hC.width_pos
  induction fuel with
  | zero => intro y len h; omega
  | succ fuel ih =>
    intro y len hf hpos hy
    unfold expandDo
    simp only [Option.bind_eq_bind]
    rw [expandBlock_eq hC kRoll y _ hk hy (Nat.min_le_right _ _), Option.bind_some]
    by_cases hl : C.width < len
    · rw [Nat.min_eq_right (by omega), if_pos (by omega), ih (re C y) (len - C.width) (by omega) (by omega) (length_re hC hy),
        Option.bind_some, show (blk C kRoll y).take C.width = blk C kRoll y from
          List.take_of_length_le (by rw [length_blk hC hk hy])]
      have e1 : (len - 1) / C.width = (len - C.width - 1) / C.width + 1 := by
        rw [Nat.div_eq_sub_div hw (by omega), show len - 1 - C.width = len - C.width - 1 by omega]
      have e2 : (len - 1) % C.width = (len - C.width - 1) % C.width := by
        rw [Nat.mod_eq_sub_mod (by omega : len - 1 ≥ C.width), show len - 1 - C.width = len - C.width - 1 by omega]
      have e3 : len / C.width = (len - C.width) / C.width + 1 := Nat.div_eq_sub_div hw (by omega)
      have r : ∀ n, Nat.repeat (re C) (n + 1) y = Nat.repeat (re C) n (re C y) := fun n => repeat_succ' _ _ _
      rw [e1, e2, e3, gen_take_succ hC kRoll y hk hy len _ (by omega), r ((len - C.width - 1) / C.width),
        r ((len - C.width - 1) / C.width + 1)]
    · rw [Nat.min_eq_left (by omega), if_neg (by omega), Nat.div_eq_of_lt (by omega : len - 1 < C.width),
        Nat.mod_eq_of_lt (by omega : len - 1 < C.width), gen_take_small hC kRoll y hk hy len _ (by omega),
        show len - 1 + 1 = len by omega]
      rfl

theorem expandWhole_eq (hC : Valid C) (kRoll : Bytes) (hk : kRoll.length = C.width) : ∀ fuel y len, len < fuel →
    y.length = C.width →
    expandWhole C kRoll fuel y len = some (Nat.repeat (re C) (len / C.width) y, gen C kRoll (len / C.width) y, len % C.width) := by
  intro fuel
  have hw := hC.width_pos
  induction fuel with
  | zero => intro y len h; omega
  | succ fuel ih =>
    intro y len hf hy
    unfold expandWhole
    by_cases hl : len ≥ C.width
    · rw [if_pos hl]
      simp only [Option.bind_eq_bind]
      rw [expandBlock_eq hC kRoll y _ hk hy (Nat.le_refl _), Option.bind_some, ih _ _ (by omega) (length_re hC hy),
        Option.bind_some, List.take_of_length_le (by rw [length_blk hC hk hy])]
      have e3 : len / C.width = (len - C.width) / C.width + 1 := Nat.div_eq_sub_div hw (by omega)
      rw [e3, Nat.mod_eq_sub_mod hl, repeat_succ', gen]
      rfl
    · rw [if_neg hl, Nat.div_eq_of_lt (by omega), Nat.mod_eq_of_lt (by omega)]
      rfl

/-- What remains of the last block goes to the queue. -/
theorem stock_eq (hC : Valid C) (kv : Inst) (hs : Sized C kv) (y : Bytes) (hy : y.length = C.width) (off : Nat)
    (ho : off ≤ C.width) :
    ∃ q, stock C kv (C.permute y) off = some { kv with queue := q, queueOffset := off * 8 } ∧ q.length = C.width ∧
      q.drop off = (blk C kv.kRoll y).drop off := by
  have hp := hC.permute_len y hy
  have hb := length_blk hC hs.kRoll hy
  have hd : (kv.kRoll.drop off).length = C.width - off := by rw [List.length_drop, hs.kRoll]
  have hbd : ((blk C kv.kRoll y).drop off).length = C.width - off := by rw [List.length_drop, hb]
  refine ⟨Bytes.setAt kv.queue off ((blk C kv.kRoll y).drop off), ?_, by rw [Bytes.length_setAt, hs.queue], ?_⟩
  · simp only [stock, Option.bind_eq_bind]
    rw [readBuf_all hd, Option.bind_some]
    have : SnP.extractAndAddBytes (C.permute y) (kv.kRoll.drop off) off = some ((blk C kv.kRoll y).drop off) := by
      rw [SnP.extractAndAddBytes, if_pos (by omega), hd, Bytes.slice,
        List.take_of_length_le (by rw [List.length_drop]; omega), xor_drop]; rfl
    rw [this, Option.bind_some]
  · have h := take_setAt kv.queue ((blk C kv.kRoll y).drop off) off (by rw [hs.queue, hbd]; omega)
    rw [hbd, List.take_of_length_le (by rw [Bytes.length_setAt, hs.queue]; omega)] at h
    rw [h, List.drop_append, List.drop_of_length_le (by rw [List.length_take]; omega), List.nil_append,
      List.length_take, hs.queue, Nat.min_eq_left ho, Nat.sub_self, List.drop_zero]

/-- What expansion does not modify. -/
structure EFrame (kv kv' : Inst) : Prop where
  k : kv'.k = kv.k
  kRoll : kv'.kRoll = kv.kRoll
  xAccu : kv'.xAccu = kv.xAccu

/-- The queue after the blocks for `len` bytes from the accumulator `y` were generated. -/
def Stocked (C : Cfg) (kv kv' : Inst) (y : Bytes) (len : Nat) : Prop :=
  if len % C.width = 0 then kv'.queue = kv.queue ∧ kv'.queueOffset = kv.queueOffset
  else kv'.queueOffset = 8 * (len % C.width) ∧
    kv'.queue.drop (len % C.width) = (blk C kv.kRoll (Nat.repeat (re C) (len / C.width) y)).drop (len % C.width)

theorem gen_take_split (hC : Valid C) (kRoll y : Bytes) (hk : kRoll.length = C.width) (hy : y.length = C.width) (len : Nat) :
    (gen C kRoll (len / C.width + 1) y).take len = gen C kRoll (len / C.width) y ++
      (blk C kRoll (Nat.repeat (re C) (len / C.width) y)).take (len % C.width) := by
  have h1 := Nat.div_mul_le_self len C.width
  rw [gen_add, List.take_append, length_gen hC hk _ _ hy, List.take_of_length_le (by rw [length_gen hC hk _ _ hy]; exact h1),
    mod_eq_sub len C.width]
  congr 2
  exact List.append_nil _

theorem expandTail_eq (hC : Valid C) (kv : Inst) (hs : Sized C kv) (len : Nat) (last : Bool) :
    ∃ kv', expandTail C kv len last = some (kv', (gen C kv.kRoll (len / C.width + 1) kv.yAccu).take len) ∧ Sized C kv' ∧
      EFrame kv kv' ∧ kv'.phase = kv.phase ∧ kv'.yAccu = Nat.repeat (re C) (nblk C.width len) kv.yAccu ∧
      (last = false → Stocked C kv kv' kv.yAccu len) := by
  have hw := hC.width_pos
  have hly : ∀ n, (Nat.repeat (re C) n kv.yAccu).length = C.width := fun n => length_repeat hC.rolle_ok.len n hs.yAccu
  unfold expandTail
  cases C.variant with
  | kravatte =>
    simp only
    unfold expandTailKravatte
    by_cases h0 : len = 0
    · subst h0
      rw [if_neg (by omega)]
      refine ⟨kv, by simp, hs, ⟨rfl, rfl, rfl⟩, rfl, by simp [nblk, Nat.repeat], ?_⟩
      intro _; unfold Stocked; rw [Nat.zero_mod, if_pos rfl]; exact ⟨rfl, rfl⟩
    · rw [if_pos h0]
      simp only [Option.bind_eq_bind]
      rw [expandDo_eq hC kv.kRoll hs.kRoll (len + 1) kv.yAccu len (by omega) (by omega) hs.yAccu, Option.bind_some]
      simp only
      by_cases hz : len % C.width = 0
      · have hq : len / C.width * C.width = len := by have := mod_eq_sub len C.width; have := Nat.div_mul_le_self len C.width; omega
        have hpos : 0 < len / C.width := Nat.div_pos (Nat.le_of_dvd (by omega) (Nat.dvd_of_mod_eq_zero hz)) hw
        obtain ⟨a, ha⟩ := Nat.exists_eq_succ_of_ne_zero (by omega : len / C.width ≠ 0)
        have hlen : len = C.width * a + C.width := by rw [← hq, ha, Nat.succ_mul, Nat.mul_comm]
        have hm1 : len - 1 = C.width * a + (C.width - 1) := by omega
        have e1 : (len - 1) / C.width = a := by
          rw [hm1, Nat.mul_add_div hw, Nat.div_eq_of_lt (by omega), Nat.add_zero]
        have e2 : (len - 1) % C.width + 1 = C.width := by
          rw [hm1, Nat.mul_add_mod, Nat.mod_eq_of_lt (by omega)]; omega
        rw [if_neg (by rw [e2]; simp)]
        refine ⟨_, rfl, ⟨hs.k, hs.kRoll, hs.xAccu, hly _, hs.queue⟩, ⟨rfl, rfl, rfl⟩, rfl, ?_, ?_⟩
        · rw [nblk, if_pos hz, e1, ha]
        · intro _; unfold Stocked; rw [if_pos hz]; exact ⟨rfl, rfl⟩
      · have hlt := Nat.mod_lt len hw
        have hsplit := Nat.div_add_mod len C.width
        have hm1 : len - 1 = C.width * (len / C.width) + (len % C.width - 1) := by omega
        have e1 : (len - 1) / C.width = len / C.width := by
          rw [hm1, Nat.mul_add_div hw, Nat.div_eq_of_lt (by omega : len % C.width - 1 < C.width), Nat.add_zero]
        have e2 : (len - 1) % C.width + 1 = len % C.width := by
          rw [hm1, Nat.mul_add_mod, Nat.mod_eq_of_lt (by omega : len % C.width - 1 < C.width)]; omega
        rw [e1, e2]
        cases last with
        | true =>
          rw [if_neg (by simp)]
          refine ⟨_, rfl, ⟨hs.k, hs.kRoll, hs.xAccu, hly _, hs.queue⟩, ⟨rfl, rfl, rfl⟩, rfl, ?_, ?_⟩
          · rw [nblk, if_neg hz]
          · intro h; simp at h
        | false =>
          rw [if_pos ⟨rfl, by omega⟩]
          obtain ⟨q, g1, g2, g3⟩ := stock_eq hC { kv with yAccu := Nat.repeat (re C) (len / C.width + 1) kv.yAccu }
            ⟨hs.k, hs.kRoll, hs.xAccu, hly _, hs.queue⟩ (Nat.repeat (re C) (len / C.width) kv.yAccu) (hly _) (len % C.width)
            (by omega)
          rw [g1, Option.bind_some]
          refine ⟨_, rfl, ⟨hs.k, hs.kRoll, hs.xAccu, hly _, g2⟩, ⟨rfl, rfl, rfl⟩, rfl, ?_, ?_⟩
          · rw [nblk, if_neg hz]
          · intro _; unfold Stocked; rw [if_neg hz]; exact ⟨Nat.mul_comm _ _, g3⟩
  | xoofff =>
    simp only
    unfold expandTailXoofff
    simp only [Option.bind_eq_bind]
    rw [expandWhole_eq hC kv.kRoll hs.kRoll (len + 1) kv.yAccu len (by omega) hs.yAccu, Option.bind_some,
      gen_take_split hC kv.kRoll kv.yAccu hs.kRoll hs.yAccu]
    simp only
    by_cases hz : len % C.width = 0
    · rw [if_neg (by omega)]
      rw [hz, List.take_zero, List.append_nil]
      refine ⟨_, rfl, ⟨hs.k, hs.kRoll, hs.xAccu, hly _, hs.queue⟩,
        ⟨rfl, rfl, rfl⟩, rfl, ?_, ?_⟩
      · rw [nblk, if_pos hz, Nat.add_zero]
      · intro _; unfold Stocked; rw [if_pos hz]; exact ⟨rfl, rfl⟩
    · have hlt := Nat.mod_lt len hw
      rw [if_pos hz, expandBlock_eq hC kv.kRoll _ _ hs.kRoll (hly _) (by omega), Option.bind_some]
      simp only
      cases last with
      | true =>
        rw [if_neg (by simp)]
        refine ⟨_, rfl, ⟨hs.k, hs.kRoll, hs.xAccu, hly (_ + 1), hs.queue⟩, ⟨rfl, rfl, rfl⟩, rfl, ?_, ?_⟩
        · rw [nblk, if_neg hz]; rfl
        · intro h; simp at h
      | false =>
        rw [if_pos rfl]
        obtain ⟨q, g1, g2, g3⟩ := stock_eq hC { kv with yAccu := Nat.repeat (re C) (len / C.width + 1) kv.yAccu }
          ⟨hs.k, hs.kRoll, hs.xAccu, hly _, hs.queue⟩ (Nat.repeat (re C) (len / C.width) kv.yAccu) (hly _) (len % C.width)
          (by omega)
        have g1' : stock C { kv with yAccu := re C (Nat.repeat (re C) (len / C.width) kv.yAccu) }
            (C.permute (Nat.repeat (re C) (len / C.width) kv.yAccu)) (len % C.width) = _ := g1
        rw [g1', Option.bind_some]
        refine ⟨_, rfl, ⟨hs.k, hs.kRoll, hs.xAccu, hly (_ + 1), g2⟩, ⟨rfl, rfl, rfl⟩, rfl, ?_, ?_⟩
        · rw [nblk, if_neg hz]
        · intro _; unfold Stocked; rw [if_neg hz]; exact ⟨Nat.mul_comm _ _, g3⟩

end Farfalle
