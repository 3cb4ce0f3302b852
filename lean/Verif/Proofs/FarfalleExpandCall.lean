import Verif.Proofs.FarfalleExpand

/-! One call of `Vatte` / `Xoofff_Expand` returns the next bytes of the output stream. -/

namespace Farfalle

open Sponge (repeat_succ')

variable {C : Cfg}

/-- `m` bytes from position `p` on of the output blocks for the accumulator `y`. -/
def cut (C : Cfg) (kRoll y : Bytes) (p m : Nat) : Bytes := Bytes.slice (gen C kRoll (p + m) y) p m

theorem gen_prefix (hC : Valid C) {kRoll y : Bytes} (hk : kRoll.length = C.width) (hy : y.length = C.width) {N M p m : Nat}
    (hN : p + m ≤ N * C.width) (hM : p + m ≤ M * C.width) :
    Bytes.slice (gen C kRoll N y) p m = Bytes.slice (gen C kRoll M y) p m := by
  have key : ∀ a b, p + m ≤ a * C.width → Bytes.slice (gen C kRoll (a + b) y) p m = Bytes.slice (gen C kRoll a y) p m := by
    intro a b ha
    have hl := length_gen hC hk a y hy
    rw [gen_add, Bytes.slice, Bytes.slice, List.drop_append_of_le_length (by omega),
      List.take_append_of_le_length (by rw [List.length_drop]; omega)]
  rcases Nat.le_total N M with h | h
  · obtain ⟨c, rfl⟩ := Nat.exists_eq_add_of_le h; exact (key N c hN).symm
  · obtain ⟨c, rfl⟩ := Nat.exists_eq_add_of_le h; exact key M c hM

theorem le_mul_width (hC : Valid C) (n : Nat) : n ≤ n * C.width := Nat.le_mul_of_pos_right n hC.width_pos

theorem length_cut (hC : Valid C) {kRoll y : Bytes} (hk : kRoll.length = C.width) (hy : y.length = C.width) (p m : Nat) :
    (cut C kRoll y p m).length = m := by
  have := le_mul_width hC (p + m)
  rw [cut, Bytes.slice, List.length_take, List.length_drop, length_gen hC hk _ _ hy]; omega

theorem lt_succ_div_mul (hC : Valid C) (m : Nat) : m ≤ (m / C.width + 1) * C.width := by
  have := Nat.lt_div_mul_add hC.width_pos (a := m)
  rw [Nat.add_mul]; omega

theorem cut_zero (hC : Valid C) {kRoll y : Bytes} (hk : kRoll.length = C.width) (hy : y.length = C.width) (m : Nat) :
    cut C kRoll y 0 m = (gen C kRoll (m / C.width + 1) y).take m := by
  rw [cut, gen_prefix hC hk hy (N := 0 + m) (M := m / C.width + 1) (le_mul_width hC _)
    (by rw [Nat.zero_add]; exact lt_succ_div_mul hC m), Bytes.slice, List.drop_zero]

/-- Whole blocks are skipped. -/
theorem cut_add (hC : Valid C) {kRoll y : Bytes} (hk : kRoll.length = C.width) (hy : y.length = C.width) (a p m : Nat) :
    cut C kRoll y (a * C.width + p) m = cut C kRoll (Nat.repeat (re C) a y) p m := by
  have h1 := le_mul_width hC (p + m)
  have h2 := le_mul_width hC (a * C.width + p + m)
  rw [cut, gen_prefix hC hk hy (N := a * C.width + p + m) (M := a + (p + m)) h2 (by rw [Nat.add_mul]; omega), gen_add,
    Bytes.slice, cut, Bytes.slice]
  have hl := length_gen hC hk a y hy
  rw [List.drop_append, List.drop_of_length_le (by omega), hl, List.nil_append, Nat.add_sub_cancel_left]

/-- What remains of the current block, and then the following ones. -/
theorem cut_block (hC : Valid C) {kRoll y : Bytes} (hk : kRoll.length = C.width) (hy : y.length = C.width) (r m : Nat)
    (hr : r ≤ C.width) :
    cut C kRoll y r m = ((blk C kRoll y).drop r).take m ++ cut C kRoll (re C y) 0 (m - (C.width - r)) := by
  have hw := hC.width_pos
  have hb := length_blk hC hk hy
  have hle := le_mul_width hC (r + m)
  have hle2 := le_mul_width hC (m - (C.width - r))
  have hN : r + m ≤ (m - (C.width - r) + 1) * C.width := by rw [Nat.add_mul, Nat.one_mul]; omega
  rw [cut, gen_prefix hC hk hy (N := r + m) (M := m - (C.width - r) + 1) hle hN, gen]
  change Bytes.slice (blk C kRoll y ++ _) r m = _
  rw [Bytes.slice, List.drop_append_of_le_length (by omega), List.take_append, List.length_drop, hb, cut, Bytes.slice,
    List.drop_zero, Nat.zero_add]

theorem cut_zero_len (kRoll y : Bytes) (p : Nat) : cut C kRoll y p 0 = [] := by simp [cut, Bytes.slice]

theorem nblk_add (hC : Valid C) (a len : Nat) : nblk C.width (a * C.width + len) = a + nblk C.width len := by
  have hw := hC.width_pos
  rw [nblk, nblk, Nat.mul_comm a, Nat.mul_add_div hw, Nat.mul_add_mod, Nat.add_assoc]

theorem div_add' (hC : Valid C) (a len : Nat) : (a * C.width + len) / C.width = a + len / C.width := by
  rw [Nat.mul_comm, Nat.mul_add_div hC.width_pos]

theorem mod_add' (a len : Nat) : (a * C.width + len) % C.width = len % C.width := by
  rw [Nat.mul_comm, Nat.mul_add_mod]

/-- The blocks generated by the paths and then by the last part. -/
theorem expandGen_eq (hC : Valid C) (kv : Inst) (hs : Sized C kv) (L : Nat) (last : Bool) :
    ∃ (y o : Bytes) (n : Nat) (kv' : Inst) (o' : Bytes),
      expandPaths C kv.kRoll C.paths kv.yAccu L = some (y, o, n) ∧
      expandTail C { kv with yAccu := y } n last = some (kv', o') ∧
      o ++ o' = cut C kv.kRoll kv.yAccu 0 L ∧ Sized C kv' ∧
      EFrame kv kv' ∧ kv'.phase = kv.phase ∧ kv'.yAccu = Nat.repeat (re C) (nblk C.width L) kv.yAccu ∧
      (last = false → Stocked C kv kv' kv.yAccu L) := by
  obtain ⟨a, h1, h2⟩ := expandPaths_eq hC kv.kRoll hs.kRoll C.paths hC.paths_ok kv.yAccu L hs.yAccu
  have hy : (Nat.repeat (re C) a kv.yAccu).length = C.width := length_repeat hC.rolle_ok.len a hs.yAccu
  obtain ⟨kv', g1, g2, g3, g4, g5, g6⟩ := expandTail_eq hC { kv with yAccu := Nat.repeat (re C) a kv.yAccu }
    ⟨hs.k, hs.kRoll, hs.xAccu, hy, hs.queue⟩ (L - a * C.width) last
  have hL : L = a * C.width + (L - a * C.width) := by omega
  refine ⟨_, _, _, kv', _, h2, g1, ?_, g2, ⟨g3.k, g3.kRoll, g3.xAccu⟩, g4, ?_, ?_⟩
  · have := cut_zero hC hs.kRoll hy (L - a * C.width)
    dsimp only
    rw [← this, ← cut_add hC hs.kRoll hs.yAccu a 0 (L - a * C.width), Nat.add_zero, cut, cut]
    rw [← hL, Nat.zero_add]
    have hg := length_gen hC hs.kRoll a kv.yAccu hs.yAccu
    have hle := le_mul_width hC (L - a * C.width)
    have hle2 := le_mul_width hC L
    rw [gen_prefix hC hs.kRoll hs.yAccu (p := 0) (m := L) (N := L) (M := a + (L - a * C.width)) (by omega)
        (by rw [Nat.add_mul]; omega),
      gen_prefix hC hs.kRoll hs.yAccu (p := a * C.width) (m := L - a * C.width) (N := L) (M := a + (L - a * C.width))
        (by omega) (by rw [Nat.add_mul]; omega),
      gen_add, Bytes.slice, Bytes.slice, List.drop_zero, List.drop_append, List.drop_of_length_le (by omega), hg,
      List.nil_append, Nat.sub_self, List.drop_zero, List.take_append, hg,
      show (gen C kv.kRoll a kv.yAccu).take L = gen C kv.kRoll a kv.yAccu from List.take_of_length_le (by omega)]
  · rw [g5]
    conv_rhs => rw [hL, nblk_add hC, repeat_add]
  · intro hlast
    have h := g6 hlast
    unfold Stocked at h ⊢
    have hmod : L % C.width = (L - a * C.width) % C.width := by conv_lhs => rw [hL, mod_add']
    have hdiv : L / C.width = a + (L - a * C.width) / C.width := by conv_lhs => rw [hL, div_add' hC]
    rw [hmod, hdiv, repeat_add]
    exact h

/-- The expansion has produced `p` bytes from the accumulator `y0`. -/
structure Exp (C : Cfg) (kv : Inst) (y0 : Bytes) (p : Nat) : Prop where
  phase : kv.phase = .expanding
  yAccu : kv.yAccu = Nat.repeat (re C) (nblk C.width p) y0
  offset : kv.queueOffset = 8 * (p % C.width)
  queue : p % C.width ≠ 0 →
    kv.queue.drop (p % C.width) = (blk C kv.kRoll (Nat.repeat (re C) (p / C.width) y0)).drop (p % C.width)

theorem expandRest_false (hC : Valid C) (kv : Inst) (hs : Sized C kv) (out : Bytes) (m : Nat) (hm : 8 * m + 7 < 2 ^ 64) :
    ∃ kv', expandRest C kv out (8 * m) false = some (0, kv', out ++ cut C kv.kRoll kv.yAccu 0 m) ∧ Sized C kv' ∧
      EFrame kv kv' ∧ kv'.phase = kv.phase ∧ kv'.yAccu = Nat.repeat (re C) (nblk C.width m) kv.yAccu ∧
      Stocked C kv kv' kv.yAccu m := by
  obtain ⟨y, o, n, kv', o', h1, h2, h3, h4, h5, h6, h7, h8⟩ := expandGen_eq hC kv hs m false
  refine ⟨kv', ?_, h4, h5, h6, h7, h8 rfl⟩
  simp only [expandRest, Option.bind_eq_bind]
  rw [Nat.mod_eq_of_lt hm, show (8 * m + 7) / 8 = m by omega, h1, Option.bind_some, h2, Option.bind_some,
    if_neg (by simp), List.append_assoc, h3]

theorem maskLast_some {out : Bytes} {bits : Nat} (h : bits % 8 ≠ 0 → out ≠ []) : ∃ o, maskLast out bits = some o := by
  unfold maskLast
  by_cases h8 : bits % 8 = 0
  · rw [if_neg (by omega)]; exact ⟨_, rfl⟩
  · rw [if_pos h8]
    cases hg : out.getLast? with
    | none => exact absurd (List.getLast?_eq_none_iff.mp hg) (h h8)
    | some b => exact ⟨_, rfl⟩

theorem maskLast_mod (out : Bytes) {a b : Nat} (h : a % 8 = b % 8) : maskLast out a = maskLast out b := by
  unfold maskLast; rw [h]

theorem expandRest_true (hC : Valid C) (kv : Inst) (hs : Sized C kv) (out : Bytes) (n : Nat) (hn : n + 7 < 2 ^ 64) :
    ∃ kv' o, maskLast (out ++ cut C kv.kRoll kv.yAccu 0 ((n + 7) / 8)) n = some o ∧
      expandRest C kv out n true = some (0, kv', o) ∧ Sized C kv' ∧ EFrame kv kv' ∧ kv'.phase = .expanded := by
  obtain ⟨y, o1, n1, kv', o', h1, h2, h3, h4, h5, h6, h7, h8⟩ := expandGen_eq hC kv hs ((n + 7) / 8) true
  obtain ⟨o, ho⟩ := maskLast_some (out := out ++ cut C kv.kRoll kv.yAccu 0 ((n + 7) / 8)) (bits := n) (by
    intro h8 he
    have hl := congrArg List.length he
    rw [List.length_append, length_cut hC hs.kRoll hs.yAccu] at hl
    simp only [List.length_nil] at hl
    omega)
  refine ⟨{ kv' with phase := .expanded }, o, ho, ?_, ⟨h4.k, h4.kRoll, h4.xAccu, h4.yAccu, h4.queue⟩,
    ⟨h5.k, h5.kRoll, h5.xAccu⟩, rfl⟩
  simp only [expandRest, Option.bind_eq_bind]
  rw [Nat.mod_eq_of_lt hn, h1, Option.bind_some, h2, Option.bind_some, if_pos trivial, List.append_assoc, h3, ho]
  rfl

/-- Start of the expansion. -/
theorem startExpand_eq (hC : Valid C) (kv : Inst) (hs : Sized C kv) (short : Bool) :
    startExpand C kv short = some { kv with yAccu := (if short then kv.xAccu else C.permute kv.xAccu), phase := .expanding } := by
  unfold startExpand
  cases short with
  | true =>
    rw [if_pos rfl]
    simp only [Option.bind_eq_bind]
    rw [readBuf_all hs.xAccu]
    rfl
  | false =>
    have hp := hC.permute_len _ hs.xAccu
    rw [if_neg (by simp)]
    simp only [Option.bind_eq_bind]
    rw [readBuf_all hs.xAccu, Option.bind_some, overwrite_all hC hs.xAccu, Option.bind_some,
      Xoodyak.extractBytes_some (by omega), Option.bind_some, Bytes.slice, List.drop_zero,
      List.take_of_length_le (by omega)]
    rfl

theorem expand_unfold (C : Cfg) (kv : Inst) (hph : kv.phase = .expanding) (n : Nat) (flags : Flags)
    (h : ¬ (flags.last = false ∧ n % 8 ≠ 0)) :
    expand C kv n flags =
      if kv.queueOffset ≠ 0 then expandQueued C kv n flags.last else expandRest C kv [] n flags.last := by
  unfold expand
  rw [if_neg h, if_neg (by rw [hph]; decide), if_neg (by rw [hph]; decide)]

/-- The data that remain in the queue. -/
theorem queue_data (hC : Valid C) {kv : Inst} (hs : Sized C kv) {y0 : Bytes} {p : Nat} (he : Exp C kv y0 p)
    (hr : p % C.width ≠ 0) {n : Nat} (hn : n ≤ C.width - p % C.width) :
    SnP.readBuf (kv.queue.drop (kv.queueOffset / 8)) n =
      some (((blk C kv.kRoll (Nat.repeat (re C) (p / C.width) y0)).drop (p % C.width)).take n) := by
  rw [he.offset, show 8 * (p % C.width) / 8 = p % C.width by omega, ← he.queue hr,
    SnP.readBuf_some (by rw [List.length_drop, hs.queue]; exact hn)]

/-- A call without the last flag, during an expansion. -/
theorem expand_false (hC : Valid C) (kv : Inst) (hs : Sized C kv) (y0 : Bytes) (hy0 : y0.length = C.width) (p : Nat)
    (he : Exp C kv y0 p) (m : Nat) (hm : 8 * m + 7 < 2 ^ 64) (init short : Bool) :
    ∃ kv', expand C kv (8 * m) ⟨init, false, short⟩ = some (0, kv', cut C kv.kRoll y0 p m) ∧ Sized C kv' ∧
      EFrame kv kv' ∧ Exp C kv' y0 (p + m) := by
  have hw := hC.width_pos
  have hlt := Nat.mod_lt p hw
  have hsplit : p = p / C.width * C.width + p % C.width := by rw [Nat.mul_comm]; exact (Nat.div_add_mod p C.width).symm
  have hly : ∀ n, (Nat.repeat (re C) n y0).length = C.width := fun n => length_repeat hC.rolle_ok.len n hy0
  rw [expand_unfold C kv he.phase (8 * m) _ (by rintro ⟨_, h⟩; omega)]
  by_cases hr : p % C.width = 0
  · have hoff : kv.queueOffset = 0 := by rw [he.offset, hr]
    rw [if_neg (by simp [hoff])]
    obtain ⟨kv', g1, g2, g3, g4, g5, g6⟩ := expandRest_false hC kv hs [] m hm
    have hy : kv.yAccu = Nat.repeat (re C) (p / C.width) y0 := by rw [he.yAccu, nblk, if_pos hr, Nat.add_zero]
    have hp : p = p / C.width * C.width := by omega
    refine ⟨kv', ?_, g2, g3, ⟨?_, ?_, ?_, ?_⟩⟩
    · rw [g1, List.nil_append, hy, ← cut_add hC hs.kRoll hy0, Nat.add_zero, ← hp]
    · rw [g4, he.phase]
    · rw [g5, hy, ← repeat_add]
      conv_rhs => rw [hp, nblk_add hC]
    · unfold Stocked at g6
      conv_rhs => rw [hp, mod_add']
      by_cases hz : m % C.width = 0
      · rw [if_pos hz] at g6; rw [g6.2, hoff, hz]
      · rw [if_neg hz] at g6; exact g6.1
    · intro hnz
      rw [hp, mod_add'] at hnz
      unfold Stocked at g6
      rw [if_neg hnz] at g6
      have e1 : (p + m) % C.width = m % C.width := by conv_lhs => rw [hp, mod_add']
      have e2 : (p + m) / C.width = p / C.width + m / C.width := by conv_lhs => rw [hp, div_add' hC]
      rw [e1, e2, g6.2, hy, g3.kRoll, ← repeat_add]
  · have hoff : kv.queueOffset ≠ 0 := by rw [he.offset]; omega
    rw [if_pos hoff]
    have hy : kv.yAccu = Nat.repeat (re C) (p / C.width + 1) y0 := by rw [he.yAccu, nblk, if_neg hr]
    have hcut : cut C kv.kRoll y0 p m =
        ((blk C kv.kRoll (Nat.repeat (re C) (p / C.width) y0)).drop (p % C.width)).take m ++
          cut C kv.kRoll kv.yAccu 0 (m - (C.width - p % C.width)) := by
      conv_lhs => rw [hsplit]
      rw [cut_add hC hs.kRoll hy0, cut_block hC hs.kRoll (hly _) _ _ (by omega), hy]
      rfl
    have hbl := length_blk hC hs.kRoll (hly (p / C.width))
    simp only [expandQueued, Option.bind_eq_bind]
    by_cases hfull : C.width - p % C.width ≤ m
    · have hmin : min (8 * m) (C.width * 8 - kv.queueOffset) = 8 * (C.width - p % C.width) := by rw [he.offset]; omega
      rw [hmin, show (8 * (C.width - p % C.width) + 7) / 8 = C.width - p % C.width by omega,
        queue_data hC hs he hr (Nat.le_refl _), Option.bind_some,
        if_neg (by simp), if_pos (by rw [he.offset]; omega),
        show 8 * m - 8 * (C.width - p % C.width) = 8 * (m - (C.width - p % C.width)) by omega]
      obtain ⟨kv', g1, g2, g3, g4, g5, g6⟩ := expandRest_false hC { kv with queueOffset := 0 }
        ⟨hs.k, hs.kRoll, hs.xAccu, hs.yAccu, hs.queue⟩
        (((blk C kv.kRoll (Nat.repeat (re C) (p / C.width) y0)).drop (p % C.width)).take (C.width - p % C.width))
        (m - (C.width - p % C.width)) (by omega)
      have hp : p + m = (p / C.width + 1) * C.width + (m - (C.width - p % C.width)) := by
        rw [Nat.add_mul, Nat.one_mul]; omega
      refine ⟨kv', ?_, g2, ⟨g3.k, g3.kRoll, g3.xAccu⟩, ⟨?_, ?_, ?_, ?_⟩⟩
      · rw [g1, hcut]
        congr 4
        rw [List.take_of_length_le (by rw [List.length_drop]; omega),
          List.take_of_length_le (by rw [List.length_drop]; omega)]
      · rw [g4]; exact he.phase
      · rw [g5, hp, nblk_add hC, repeat_add]
        change _ = Nat.repeat (re C) _ (Nat.repeat (re C) (p / C.width + 1) y0)
        rw [← hy]
      · unfold Stocked at g6
        rw [hp, mod_add']
        by_cases hz : (m - (C.width - p % C.width)) % C.width = 0
        · rw [if_pos hz] at g6; rw [g6.2, hz]
        · rw [if_neg hz] at g6; exact g6.1
      · intro hnz
        rw [hp, mod_add'] at hnz
        unfold Stocked at g6
        rw [if_neg hnz] at g6
        rw [hp, mod_add', div_add' hC, g6.2, g3.kRoll, repeat_add, ← hy]
    · have hmin : min (8 * m) (C.width * 8 - kv.queueOffset) = 8 * m := by rw [he.offset]; omega
      rw [hmin, show (8 * m + 7) / 8 = m by omega,
        queue_data hC hs he hr (by omega), Option.bind_some,
        if_neg (by simp), if_neg (by rw [he.offset]; omega), Nat.sub_self]
      obtain ⟨kv', g1, g2, g3, g4, g5, g6⟩ := expandRest_false hC { kv with queueOffset := kv.queueOffset + 8 * m }
        ⟨hs.k, hs.kRoll, hs.xAccu, hs.yAccu, hs.queue⟩
        (((blk C kv.kRoll (Nat.repeat (re C) (p / C.width) y0)).drop (p % C.width)).take m) 0 (by omega)
      have e1 : (p + m) % C.width = p % C.width + m := by
        conv_lhs => rw [hsplit, Nat.add_assoc, mod_add']
        exact Nat.mod_eq_of_lt (by omega)
      have e2 : (p + m) / C.width = p / C.width := by
        conv_lhs => rw [hsplit, Nat.add_assoc, div_add' hC]
        rw [Nat.div_eq_of_lt (by omega : p % C.width + m < C.width), Nat.add_zero]
      unfold Stocked at g6
      rw [Nat.zero_mod, if_pos rfl] at g6
      refine ⟨kv', ?_, g2, ⟨g3.k, g3.kRoll, g3.xAccu⟩, ⟨?_, ?_, ?_, ?_⟩⟩
      · rw [show 8 * 0 = 0 from rfl] at g1
        rw [g1, hcut, show m - (C.width - p % C.width) = 0 by omega, cut_zero_len]
      · rw [g4]; exact he.phase
      · rw [g5, nblk, nblk, e1, e2, Nat.zero_div, Nat.zero_mod, if_pos rfl, if_neg (by omega)]
        exact hy
      · rw [g6.2, e1]; change kv.queueOffset + 8 * m = _; rw [he.offset, Nat.mul_add]
      · intro _
        rw [e1, e2, g6.1, g3.kRoll]
        change kv.queue.drop _ = (blk C kv.kRoll _).drop _
        rw [← List.drop_drop, he.queue hr, List.drop_drop]

/-- A call with the last flag, during an expansion. -/
theorem expand_true (hC : Valid C) (kv : Inst) (hs : Sized C kv) (y0 : Bytes) (hy0 : y0.length = C.width) (p : Nat)
    (he : Exp C kv y0 p) (n : Nat) (hn : n + 7 < 2 ^ 64) (init short : Bool) :
    ∃ kv' o, maskLast (cut C kv.kRoll y0 p ((n + 7) / 8)) n = some o ∧
      expand C kv n ⟨init, true, short⟩ = some (0, kv', o) ∧ Sized C kv' ∧ EFrame kv kv' ∧ kv'.phase = .expanded := by
  have hw := hC.width_pos
  have hlt := Nat.mod_lt p hw
  have hsplit : p = p / C.width * C.width + p % C.width := by rw [Nat.mul_comm]; exact (Nat.div_add_mod p C.width).symm
  have hly : ∀ n, (Nat.repeat (re C) n y0).length = C.width := fun n => length_repeat hC.rolle_ok.len n hy0
  rw [expand_unfold C kv he.phase n _ (by rintro ⟨h, _⟩; simp at h)]
  by_cases hr : p % C.width = 0
  · have hoff : kv.queueOffset = 0 := by rw [he.offset, hr]
    rw [if_neg (by simp [hoff])]
    obtain ⟨kv', o, g1, g2, g3, g4, g5⟩ := expandRest_true hC kv hs [] n hn
    have hy : kv.yAccu = Nat.repeat (re C) (p / C.width) y0 := by rw [he.yAccu, nblk, if_pos hr, Nat.add_zero]
    have hp : p = p / C.width * C.width := by omega
    refine ⟨kv', o, ?_, g2, g3, g4, g5⟩
    rw [List.nil_append, hy, ← cut_add hC hs.kRoll hy0, Nat.add_zero, ← hp] at g1
    exact g1
  · have hoff : kv.queueOffset ≠ 0 := by rw [he.offset]; omega
    rw [if_pos hoff]
    have hy : kv.yAccu = Nat.repeat (re C) (p / C.width + 1) y0 := by rw [he.yAccu, nblk, if_neg hr]
    have hcut : ∀ m, cut C kv.kRoll y0 p m =
        ((blk C kv.kRoll (Nat.repeat (re C) (p / C.width) y0)).drop (p % C.width)).take m ++
          cut C kv.kRoll kv.yAccu 0 (m - (C.width - p % C.width)) := by
      intro m
      conv_lhs => rw [hsplit]
      rw [cut_add hC hs.kRoll hy0, cut_block hC hs.kRoll (hly _) _ _ (by omega), hy]
      rfl
    have hbl := length_blk hC hs.kRoll (hly (p / C.width))
    simp only [expandQueued, Option.bind_eq_bind]
    by_cases hfull : 8 * (C.width - p % C.width) < n
    · have hmin : min n (C.width * 8 - kv.queueOffset) = 8 * (C.width - p % C.width) := by rw [he.offset]; omega
      rw [hmin, show (8 * (C.width - p % C.width) + 7) / 8 = C.width - p % C.width by omega,
        queue_data hC hs he hr (Nat.le_refl _), Option.bind_some,
        if_neg (by rintro ⟨_, h⟩; omega), if_pos (by rw [he.offset]; omega)]
      obtain ⟨kv', o, g1, g2, g3, g4, g5⟩ := expandRest_true hC { kv with queueOffset := 0 }
        ⟨hs.k, hs.kRoll, hs.xAccu, hs.yAccu, hs.queue⟩
        (((blk C kv.kRoll (Nat.repeat (re C) (p / C.width) y0)).drop (p % C.width)).take (C.width - p % C.width))
        (n - 8 * (C.width - p % C.width)) (by omega)
      refine ⟨kv', o, ?_, g2, g3, ⟨g4.k, g4.kRoll, g4.xAccu⟩, g5⟩
      rw [maskLast_mod _ (by omega : (n - 8 * (C.width - p % C.width)) % 8 = n % 8)] at g1
      rw [hcut, ← g1]
      congr 2
      · rw [List.take_of_length_le (by rw [List.length_drop]; omega),
          List.take_of_length_le (by rw [List.length_drop]; omega)]
      · change _ = cut C kv.kRoll kv.yAccu 0 _
        congr 1; omega
    · have hmin : min n (C.width * 8 - kv.queueOffset) = n := by rw [he.offset]; omega
      rw [hmin, queue_data hC hs he hr (by omega : (n + 7) / 8 ≤ C.width - p % C.width), Option.bind_some,
        if_pos ⟨trivial, by omega⟩]
      have hcut' := hcut ((n + 7) / 8)
      rw [show (n + 7) / 8 - (C.width - p % C.width) = 0 by omega, cut_zero_len, List.append_nil] at hcut'
      obtain ⟨o, ho⟩ := maskLast_some (out := cut C kv.kRoll y0 p ((n + 7) / 8)) (bits := n) (by
        intro h8 hnil
        have hl := congrArg List.length hnil
        rw [length_cut hC hs.kRoll hy0] at hl
        simp only [List.length_nil] at hl
        omega)
      rw [← hcut', ho, Option.bind_some]
      refine ⟨_, o, rfl, rfl, ⟨hs.k, hs.kRoll, hs.xAccu, hs.yAccu, hs.queue⟩, ⟨rfl, rfl, rfl⟩, rfl⟩

/-- A call during the compression phase with an empty queue starts an expansion. -/
theorem expand_start (hC : Valid C) (kv : Inst) (hs : Sized C kv) (hph : kv.phase = .compressing) (h0 : kv.queueOffset = 0)
    (n : Nat) (flags : Flags) :
    expand C kv n flags = expand C { kv with
        yAccu := (if flags.short then kv.xAccu else C.permute kv.xAccu), phase := .expanding } n flags ∨ (flags.last = false ∧ n % 8 ≠ 0) := by
  by_cases h : flags.last = false ∧ n % 8 ≠ 0
  · exact Or.inr h
  · left
    rw [expand_unfold C { kv with
        yAccu := (if flags.short then kv.xAccu else C.permute kv.xAccu), phase := .expanding } rfl n flags h]
    unfold expand
    rw [if_neg h, if_pos hph, if_neg (by simp [h0]), startExpand_eq hC kv hs]
    simp only [h0]
    rfl

end Farfalle
