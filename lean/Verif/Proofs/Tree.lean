import Verif.Model.PlSnP
import Verif.Proofs.SpongeAbs

/-!
Helper lemmas for tree hashing: the parallel processing of leaves computes the chaining values one would get
from one sponge per leaf.
-/

namespace PlSnP
open Sponge

variable {P : SnP}

theorem getElem?_drop_lt {α} (l : List α) (n : Nat) : (l.drop n)[0]? = l[n]? := by simp

theorem absorbBlocks_take (f : Bytes → Bytes) (blk : Nat) (k : Nat) :
    ∀ s x n, k * blk ≤ n → SnP.absorbBlocks f blk k s (x.take n) = SnP.absorbBlocks f blk k s x := by
  induction k with
  | zero => intros; rfl
  | succ k ih =>
    intro s x n h
    have h1 : (k + 1) * blk = k * blk + blk := by rw [Nat.add_mul, Nat.one_mul]
    simp only [SnP.absorbBlocks]
    rw [List.take_take, Nat.min_eq_left (by omega), List.drop_take, ih _ _ _ (by omega)]

theorem absorbBlocks_succ' (f : Bytes → Bytes) (blk : Nat) (k : Nat) :
    ∀ s x, SnP.absorbBlocks f blk (k + 1) s x =
      f (Bytes.xorAt (SnP.absorbBlocks f blk k s x) 0 ((x.drop (k * blk)).take blk)) := by
  induction k with
  | zero => intro s x; simp [SnP.absorbBlocks]
  | succ k ih =>
    intro s x
    rw [SnP.absorbBlocks, ih, SnP.absorbBlocks, List.drop_drop]
    congr 5
    rw [Nat.add_mul]; omega

/-- `AddLanesAll` when the lane offsets do not wrap around and the data are long enough. -/
theorem addLanesAll_eq {B lc : Nat} (data : Bytes) (hlcw : lc * 8 ≤ P.width) (hB8 : B % 8 = 0) :
    ∀ (ss : List Bytes) (i : Nat), (∀ s ∈ ss, s.length = P.width) →
      (i + ss.length) * B ≤ 2 ^ 32 + B - 1 → (ss ≠ [] → (i + ss.length - 1) * B + lc * 8 ≤ data.length) →
      addLanesAll data lc (B / 8) i ss =
        some (ss.mapIdx fun j s => Bytes.xorAt s 0 ((data.drop ((i + j) * B)).take (lc * 8))) := by
  intro ss
  induction ss with
  | nil => intros; rfl
  | cons s ss ih =>
    intro i hs hB hd
    have hd := hd (by simp)
    simp only [List.length_cons] at hB hd
    have e1 : (i + (ss.length + 1) - 1) = i + ss.length := by omega
    rw [e1] at hd
    have hiB : i * B ≤ (i + ss.length) * B := Nat.mul_le_mul_right _ (by omega)
    have e2 : (i + (ss.length + 1)) * B = (i + ss.length) * B + B := by
      rw [← Nat.add_assoc, Nat.add_mul (i + ss.length), Nat.one_mul]
    have hptr : lanePtr (B / 8) i = i * B := by
      unfold lanePtr
      have : B / 8 * i * 8 = i * B := by
        have : B / 8 * 8 = B := by omega
        calc B / 8 * i * 8 = i * (B / 8 * 8) := by ring
          _ = _ := by rw [this]
      rw [this]
      exact Nat.mod_eq_of_lt (by omega)
    have hrec := ih (i + 1) (fun s h => hs s (by simp [h])) (by rw [e2] at hB; rw [show i + 1 + ss.length = i + (ss.length+1) by omega, e2]; exact hB)
      (fun _ => by rw [show i + 1 + ss.length - 1 = i + ss.length by omega]; exact hd)
    have hlen : s.length = P.width := hs s (by simp)
    simp only [addLanesAll, hptr, SnP.readBuf, SnP.addBytes, List.length_drop, List.length_take]
    rw [if_pos (by omega)]
    simp only [Option.bind_eq_bind, Option.bind_some, List.length_take, List.length_drop]
    rw [if_pos (by omega), hrec]
    simp only [Option.bind_some, List.mapIdx_cons, Nat.add_zero, Option.some.injEq, List.cons.injEq, true_and]
    apply List.ext_getElem? ; intro j
    simp only [List.getElem?_mapIdx]
    rw [show i + 1 + j = i + (j + 1) by omega]

/-- The states after `k` blocks of `r` bytes have been absorbed in each of them. -/
def afterBlocks (P : SnP) (r B k : Nat) (ss : List Bytes) (data : Bytes) : List Bytes :=
  ss.mapIdx fun j s => SnP.absorbBlocks P.permute r k s (data.drop (j * B))

@[simp] theorem length_afterBlocks (r B k ss data) :
    (afterBlocks P r B k ss data).length = ss.length := by simp [afterBlocks]

theorem afterBlocks_zero (r B ss data) : afterBlocks P r B 0 ss data = ss := by
  apply List.ext_getElem?; intro j
  simp [afterBlocks, SnP.absorbBlocks, List.getElem?_mapIdx]

theorem afterBlocks_step (r B k : Nat) (ss : List Bytes) (data : Bytes) :
    afterBlocks P r B k (permuteAll P (ss.mapIdx fun j s =>
        Bytes.xorAt s 0 ((data.drop ((0 + j) * B)).take r))) (data.drop r) =
      afterBlocks P r B (k + 1) ss data := by
  apply List.ext_getElem?; intro j
  simp only [afterBlocks, permuteAll, List.getElem?_mapIdx, List.getElem?_map, SnP.absorbBlocks, Option.map_map,
    Nat.zero_add]
  cases ss[j]? with
  | none => rfl
  | some s =>
    simp only [Option.map_some, Function.comp, List.drop_drop]
    rw [Nat.add_comm r]

theorem permuteAll_len (hP : P.Valid) {ss : List Bytes} (h : ∀ s ∈ ss, s.length = P.width) :
    ∀ s ∈ permuteAll P ss, s.length = P.width := by
  intro s hs
  simp only [permuteAll, List.mem_map] at hs
  obtain ⟨a, ha, rfl⟩ := hs
  exact hP.permute_len a (h a ha)

theorem mapIdx_xorAt_len {ss : List Bytes} {w : Nat} (h : ∀ s ∈ ss, s.length = w) (f : Nat → Bytes) (o : Nat) :
    ∀ s ∈ ss.mapIdx (fun j s => Bytes.xorAt s o (f j)), s.length = w := by
  intro s hs
  obtain ⟨i, hi, rfl⟩ := List.mem_mapIdx.1 hs
  simpa using h _ (List.getElem_mem hi)

section
variable (hP : P.Valid) {B lc : Nat} (hlc : 0 < lc) (hlcw : lc * 8 ≤ P.width) (hB8 : B % 8 = 0)
include hP hlc hlcw hB8

theorem absorbLoop_eq (D : Nat) (hD : 0 < D) (hDB : (D - 1) * B + lc * 8 < 2 ^ 32) : ∀ (fuel : Nat) (ss : List Bytes) (data : Bytes) (n : Nat),
    n < fuel → ss.length = D → (∀ s ∈ ss, s.length = P.width) → (D - 1) * B + n ≤ data.length →
    PlSnP.absorbLoop P lc (B / 8) fuel ss data n =
      some (afterBlocks P (lc * 8) B (n / (lc * 8)) ss data, n / (lc * 8) * (lc * 8)) := by
  intro fuel
  induction fuel with
  | zero => intro ss data n h; omega
  | succ fuel ih =>
    intro ss data n hf hl hs hd
    simp only [PlSnP.absorbLoop]
    by_cases hn : n ≥ lc * 8
    · have e1 : (0 + ss.length) * B = (D - 1) * B + B := by
        rw [hl, Nat.zero_add]
        conv_lhs => rw [show D = D - 1 + 1 by omega, Nat.add_mul, Nat.one_mul]
      have h1 := addLanesAll_eq (P := P) (B := B) (lc := lc) data hlcw hB8 ss 0 hs (by rw [e1]; omega)
        (fun _ => by rw [Nat.zero_add, hl]; omega)
      have hdiv : n / (lc * 8) = (n - lc * 8) / (lc * 8) + 1 := by
        rw [Nat.div_eq_sub_div (by omega) hn]
      rw [if_pos hn, h1]
      simp only [Option.bind_eq_bind, Option.bind_some]
      rw [ih _ _ (n - lc * 8) (by omega) (by simp [permuteAll, hl])
        (permuteAll_len hP (mapIdx_xorAt_len hs _ _)) (by simp; omega)]
      simp only [Option.bind_some, Option.some.injEq, Prod.mk.injEq]
      rw [afterBlocks_step, hdiv]
      exact ⟨rfl, by rw [Nat.add_mul, Nat.one_mul]⟩
    · rw [if_neg hn, Nat.div_eq_of_lt (by omega)]
      simp [afterBlocks_zero]

theorem fastLoopAbsorb_eq (D : Nat) (hD : 0 < D) (hDB : (D - 1) * B + lc * 8 < 2 ^ 32) :
    ∀ (fuel : Nat) (ss : List Bytes) (data : Bytes) (n : Nat),
    n < fuel → (D - 1) * B + n < 2 ^ 64 → ss.length = D → (∀ s ∈ ss, s.length = P.width) →
    (D - 1) * B + n ≤ data.length →
    fastLoopAbsorb P lc (B / 8) lc fuel ss data ((D - 1) * B + n) =
      some (afterBlocks P (lc * 8) B (n / (lc * 8)) ss data, n / (lc * 8) * (lc * 8)) := by
  intro fuel
  induction fuel with
  | zero => intro ss data n h; omega
  | succ fuel ih =>
    intro ss data n hf h64 hl hs hd
    simp only [fastLoopAbsorb]
    have hthr : (B / 8 * (ss.length - 1) + lc) * 8 % 2 ^ 32 = (D - 1) * B + lc * 8 := by
      have : (B / 8 * (ss.length - 1) + lc) * 8 = (D - 1) * B + lc * 8 := by
        rw [hl]
        have : B / 8 * 8 = B := by omega
        calc (B / 8 * (D - 1) + lc) * 8 = (D - 1) * (B / 8 * 8) + lc * 8 := by ring
          _ = _ := by rw [this]
      rw [this, Nat.mod_eq_of_lt hDB]
    rw [hthr]
    by_cases hn : n ≥ lc * 8
    · have e1 : (0 + ss.length) * B = (D - 1) * B + B := by
        rw [hl, Nat.zero_add]
        conv_lhs => rw [show D = D - 1 + 1 by omega, Nat.add_mul, Nat.one_mul]
      have h1 := addLanesAll_eq (P := P) (B := B) (lc := lc) data hlcw hB8 ss 0 hs (by rw [e1]; omega)
        (fun _ => by rw [Nat.zero_add, hl]; omega)
      have hdiv : n / (lc * 8) = (n - lc * 8) / (lc * 8) + 1 := by
        rw [Nat.div_eq_sub_div (by omega) hn]
      rw [if_pos (by omega), h1]
      simp only [Option.bind_eq_bind, Option.bind_some]
      have hlen : ((D - 1) * B + n + 2 ^ 64 - lc * 8) % 2 ^ 64 = (D - 1) * B + (n - lc * 8) := by
        rw [show (D - 1) * B + n + 2 ^ 64 - lc * 8 = (D - 1) * B + (n - lc * 8) + 2 ^ 64 by omega,
          Nat.add_mod_right, Nat.mod_eq_of_lt (by omega)]
      rw [hlen, ih _ _ (n - lc * 8) (by omega) (by omega) (by simp [permuteAll, hl])
        (permuteAll_len hP (mapIdx_xorAt_len hs _ _)) (by simp; omega)]
      simp only [Option.bind_some, Option.some.injEq, Prod.mk.injEq]
      rw [afterBlocks_step, hdiv]
      exact ⟨rfl, by rw [Nat.add_mul, Nat.one_mul]⟩
    · rw [if_neg (by omega), Nat.div_eq_of_lt (by omega)]
      simp [afterBlocks_zero]

end

theorem padLeaves_eq {r B : Nat} (d : Byte) (len : Nat) (data : Bytes) (hr : 0 < r) (hrw : r ≤ P.width)
    (hlen : len < r) :
    ∀ (ss : List Bytes) (i : Nat), (∀ s ∈ ss, s.length = P.width) →
      (ss ≠ [] → (i + ss.length - 1) * B + len ≤ data.length) →
      padLeaves r B d len data i ss =
        some (ss.mapIdx fun j s => Bytes.xorAt (Bytes.xorAt (Bytes.xorAt s 0
          ((data.drop ((i + j) * B)).take len)) len [d]) (r - 1) [0x80]) := by
  intro ss
  induction ss with
  | nil => intros; rfl
  | cons s ss ih =>
    intro i hs hd
    have hd := hd (by simp)
    simp only [List.length_cons] at hd
    have e1 : (i + (ss.length + 1) - 1) = i + ss.length := by omega
    rw [e1] at hd
    have hiB : i * B ≤ (i + ss.length) * B := Nat.mul_le_mul_right _ (by omega)
    have hrec := ih (i + 1) (fun s h => hs s (by simp [h]))
      (fun _ => by rw [show i + 1 + ss.length - 1 = i + ss.length by omega]; exact hd)
    have hsl : s.length = P.width := hs s (by simp)
    simp only [padLeaves, SnP.readBuf, SnP.addBytes, SnP.addByte, List.length_drop, List.length_take]
    rw [if_pos (by omega)]
    simp only [Option.bind_eq_bind, Option.bind_some, List.length_take, List.length_drop]
    rw [if_pos (by omega)]
    simp only [Option.bind_some, Bytes.length_xorAt]
    rw [if_pos (by omega)]
    simp only [Option.bind_some, Bytes.length_xorAt]
    rw [if_pos (by omega), hrec]
    simp only [Option.bind_some, List.mapIdx_cons, Nat.add_zero, Option.some.injEq, List.cons.injEq, true_and]
    apply List.ext_getElem? ; intro j
    simp only [List.getElem?_mapIdx]
    rw [show i + 1 + j = i + (j + 1) by omega]

theorem extractLanesAll_eq {lc : Nat} (hlcw : lc * 8 ≤ P.width) : ∀ (ss : List Bytes),
    (∀ s ∈ ss, s.length = P.width) →
    extractLanesAll lc ss = some (ss.flatMap fun s => Bytes.slice s 0 (lc * 8)) := by
  intro ss
  induction ss with
  | nil => intros; rfl
  | cons s ss ih =>
    intro hs
    have hsl : s.length = P.width := hs s (by simp)
    simp only [extractLanesAll, SnP.extractBytes, ih (fun s h => hs s (by simp [h]))]
    rw [if_pos (by omega)]
    simp

/-- A leaf computed block by block is the sponge output. -/
theorem leaf_out (hP : P.Valid) {r : Nat} (hr : 0 < r) (hrw : r ≤ P.width) (d : Byte) (hd : ¬ 0x80#8 ≤ d)
    (cv : Nat) (hcv : cv ≤ r) (x : Bytes) :
    out P r x d cv = Bytes.slice (P.permute (Bytes.xorAt (Bytes.xorAt (Bytes.xorAt
      (SnP.absorbBlocks P.permute r (x.length / r) P.init x) 0 (x.drop (x.length / r * r)))
      (x.length % r) [d]) (r - 1) [0x80])) 0 cv := by
  obtain ⟨h1, h2⟩ := absorbBlocks_eq hP hr (x.length / r) P.init x (by simp [SnP.init])
    (Nat.div_mul_le_self _ _)
  have hm := Nat.mod_lt x.length hr
  have hdl : (x.drop (x.length / r * r)).length = x.length % r := by
    rw [List.length_drop]
    have := Nat.div_add_mod x.length r
    rw [Nat.mul_comm] at this
    omega
  unfold out
  rw [h1, absorbAll_lt _ _ _ _ (by omega), hdl, Nat.zero_add]
  simp only [finish, hd, false_and, if_false]
  rw [squeezeAll_block _ _ _ _ (by omega) (by rw [hP.permute_len _ (by simpa using h2)]; exact hrw)]

/-- The chaining values of `n` consecutive blocks of `B` bytes. -/
def leafCVs (P : SnP) (r B : Nat) (d : Byte) (cv : Nat) : Nat → Bytes → Bytes
  | 0, _ => []
  | n + 1, x => out P r (x.take B) d cv ++ leafCVs P r B d cv n (x.drop B)

theorem leafCVs_add (r B d cv) (m n : Nat) : ∀ x,
    leafCVs P r B d cv (m + n) x = leafCVs P r B d cv m x ++ leafCVs P r B d cv n (x.drop (m * B)) := by
  induction m with
  | zero => intro x; simp [leafCVs]
  | succ m ih =>
    intro x
    rw [show m + 1 + n = (m + n) + 1 by omega]
    simp only [leafCVs, ih, List.drop_drop, List.append_assoc]
    congr 4
    rw [Nat.add_mul]; omega

theorem leafCVs_eq_range (r B d cv) (n : Nat) : ∀ x,
    leafCVs P r B d cv n x = (List.range n).flatMap fun i => out P r ((x.drop (i * B)).take B) d cv := by
  induction n with
  | zero => intro x; rfl
  | succ n ih =>
    intro x
    rw [leafCVs_add, ih, List.range_succ, List.flatMap_append]
    simp [leafCVs]

theorem leafCVs_take (r B d cv) (n : Nat) (x : Bytes) (k : Nat) (h : n * B ≤ k) :
    leafCVs P r B d cv n (x.take k) = leafCVs P r B d cv n x := by
  induction n generalizing x k with
  | zero => rfl
  | succ n ih =>
    rw [Nat.add_mul, Nat.one_mul] at h
    simp only [leafCVs]
    rw [List.take_take, Nat.min_eq_left (by omega), List.drop_take, ih _ _ (by omega)]

/-- What is required of the parallel implementations: the degree is at least two, offsets do not wrap around at
2^32, and `ProcessLeaves`, if used, computes the chaining values. -/
def CfgOk (P : SnP) (L : Leaf) (cfg : Cfg) : Prop :=
  2 ≤ cfg.degree ∧ (cfg.degree - 1) * L.blockLen + L.rateInLanes * 8 < 2 ^ 32 ∧
  ∀ F, cfg.kind = .processLeaves F → ∀ x : Bytes, x.length = cfg.degree * L.blockLen →
    F x = leafCVs P (L.rateInLanes * 8) L.blockLen L.suffix (L.cvLanes * 8) cfg.degree x

theorem CfgOk.pos {L : Leaf} {cfg : Cfg} (h : CfgOk P L cfg) : 0 < cfg.degree := by
  have := h.1; omega

theorem CfgOk.B_lt {L : Leaf} {cfg : Cfg} (h : CfgOk P L cfg) : L.blockLen < 2 ^ 32 := by
  obtain ⟨h1, h2, -⟩ := h
  have : 1 * L.blockLen ≤ (cfg.degree - 1) * L.blockLen := Nat.mul_le_mul_right _ (by omega)
  omega

/-- The requirements on the leaf parameters, met by ParallelHash and KangarooTwelve. -/
structure LeafOk (P : SnP) (L : Leaf) : Prop where
  rate_pos : 0 < L.rateInLanes
  rate_le : L.rateInLanes * 8 ≤ P.width
  B_pos : 0 < L.blockLen
  B8 : L.blockLen % 8 = 0
  cv_le : L.cvLanes * 8 ≤ L.rateInLanes * 8
  suffix_ne : L.suffix ≠ 0
  suffix_lt : ¬ 0x80#8 ≤ L.suffix

theorem finishLeaves_eq (hP : P.Valid) {L : Leaf} (hL : LeafOk P L) {D : Nat}
    (hB : L.blockLen < 2 ^ 32) (input : Bytes) (hin : D * L.blockLen ≤ input.length) :
    finishLeaves P L (afterBlocks P (L.rateInLanes * 8) L.blockLen (L.blockLen / (L.rateInLanes * 8))
        (List.replicate D P.init) input)
      (L.blockLen / (L.rateInLanes * 8) * (L.rateInLanes * 8)) input =
      some (leafCVs P (L.rateInLanes * 8) L.blockLen L.suffix (L.cvLanes * 8) D input) := by
  obtain ⟨h1, h2, h3, h4, h5, h6, h7⟩ := hL
  obtain ⟨lc, cvl, B, d⟩ := L
  simp only at *
  set r := lc * 8 with hr
  have hrp : 0 < r := by omega
  have hdm := Nat.div_add_mod B r
  rw [Nat.mul_comm] at hdm
  have hm := Nat.mod_lt B hrp
  have hlen : (B + 2 ^ 64 - B / r * r) % 2 ^ 64 % 2 ^ 32 = B % r := by
    rw [show B + 2 ^ 64 - B / r * r = B % r + 2 ^ 64 by omega, Nat.add_mod_right,
      Nat.mod_eq_of_lt (by omega), Nat.mod_eq_of_lt (by omega)]
  have hslen : ∀ s ∈ afterBlocks P r B (B / r) (List.replicate D P.init) input, s.length = P.width := by
    intro s hs
    obtain ⟨i, hi, rfl⟩ := List.mem_mapIdx.1 hs
    simp only [List.length_replicate] at hi
    refine (absorbBlocks_eq hP hrp _ _ _ (by simp [SnP.init]) ?_).2
    have : (i + 1) * B ≤ D * B := Nat.mul_le_mul_right _ hi
    rw [Nat.add_mul] at this
    simp; omega
  unfold finishLeaves
  simp only [hlen]
  rw [← hr, padLeaves_eq (P := P) d (B % r) _ hrp h2 hm _ 0 hslen (by
    intro hne
    have hD : 0 < D := by
      rcases Nat.eq_zero_or_pos D with h | h
      · subst h; exact absurd rfl hne
      · exact h
    simp only [length_afterBlocks, List.length_replicate, Nat.zero_add, List.length_drop]
    have : (D - 1) * B + B = D * B := by
      conv_rhs => rw [show D = D - 1 + 1 by omega, Nat.add_mul, Nat.one_mul]
    omega)]
  simp only [Option.bind_eq_bind, Option.bind_some]
  rw [extractLanesAll_eq (P := P) (by omega) _ (permuteAll_len hP (by
    intro s hs
    obtain ⟨i, hi, rfl⟩ := List.mem_mapIdx.1 hs
    simpa using hslen _ (List.getElem_mem hi)))]
  congr 1
  rw [leafCVs_eq_range]
  rw [List.flatMap_def, List.flatMap_def]
  congr 1
  apply List.ext_getElem?; intro j
  simp only [permuteAll, afterBlocks, List.getElem?_map, List.getElem?_mapIdx, List.getElem?_replicate]
  by_cases hj : j < D
  · have hjB : (j + 1) * B ≤ D * B := Nat.mul_le_mul_right _ hj
    rw [Nat.add_mul] at hjB
    have hxl : ((input.drop (j * B)).take B).length = B := by simp; omega
    simp only [hj, if_true, Option.map_some, List.getElem?_range, Nat.zero_add]
    rw [leaf_out hP hrp h2 d h7 _ (by omega), hxl, absorbBlocks_take _ _ _ _ _ _ (Nat.div_mul_le_self _ _),
      List.drop_take, show B - B / r * r = B % r by omega, List.drop_drop, List.drop_drop, Nat.add_comm (B / r * r)]
  · rw [if_neg hj]
    rw [List.getElem?_eq_none (by simpa using hj)]
    rfl

theorem leafBatch_eq (hP : P.Valid) {L : Leaf} (hL : LeafOk P L) {cfg : Cfg} (hc : CfgOk P L cfg)
    (hDB : cfg.degree * L.blockLen < 2 ^ 64) (input : Bytes)
    (hin : cfg.degree * L.blockLen ≤ input.length) :
    leafBatch P L cfg input =
      some (leafCVs P (L.rateInLanes * 8) L.blockLen L.suffix (L.cvLanes * 8) cfg.degree input) := by
  have hB := hc.B_lt
  have hD := hc.pos
  obtain ⟨-, hw, hF⟩ := hc
  have e : (cfg.degree - 1) * L.blockLen + L.blockLen = cfg.degree * L.blockLen := by
    conv_rhs => rw [show cfg.degree = cfg.degree - 1 + 1 by omega, Nat.add_mul, Nat.one_mul]
  have hsl : ∀ s ∈ List.replicate cfg.degree P.init, s.length = P.width := by
    intro s hs; rw [List.eq_of_mem_replicate hs]; simp [SnP.init]
  have hlo : L.blockLen / 8 % 2 ^ 32 = L.blockLen / 8 := Nat.mod_eq_of_lt (by omega)
  unfold leafBatch
  cases hk : cfg.kind with
  | loop =>
    simp only [hlo]
    rw [PlSnP.absorbLoop_eq hP hL.rate_pos hL.rate_le hL.B8 cfg.degree hD hw _ _ _ _ (by omega) (by simp) hsl
      (by omega)]
    exact finishLeaves_eq hP hL hB input hin
  | fastLoop =>
    simp only [hlo]
    rw [Nat.mod_eq_of_lt hDB, ← e, fastLoopAbsorb_eq hP hL.rate_pos hL.rate_le hL.B8 cfg.degree hD hw _ _ _ _
      (by omega) (by omega) (by simp) hsl (by omega)]
    exact finishLeaves_eq hP hL hB input hin
  | processLeaves F =>
    simp only [SnP.readBuf]
    rw [if_pos hin]
    simp only [Option.bind_eq_bind, Option.bind_some]
    rw [hF F hk _ (by simp; omega), leafCVs_take _ _ _ _ _ _ _ (Nat.le_refl _)]

theorem leafLoop_eq (hP : P.Valid) {L : Leaf} (hL : LeafOk P L) {cfg : Cfg} (hc : CfgOk P L cfg)
    (hDB : cfg.degree * L.blockLen < 2 ^ 64) {r : Nat} (hr : 0 < r) (hrw : r ≤ P.width) :
    ∀ (fuel : Nat) (m input : Bytes), input.length < fuel →
    ∃ n, n * L.blockLen ≤ input.length ∧ leafLoop P L cfg fuel (absd P r m) input =
      some (0, absd P r (m ++ leafCVs P (L.rateInLanes * 8) L.blockLen L.suffix (L.cvLanes * 8) n input),
        input.drop (n * L.blockLen), n) := by
  intro fuel
  induction fuel with
  | zero => intro m input h; omega
  | succ fuel ih =>
    intro m input hf
    simp only [leafLoop]
    rw [Nat.mod_eq_of_lt hDB]
    have hpos : 0 < cfg.degree * L.blockLen := Nat.mul_pos hc.pos hL.B_pos
    by_cases hn : input.length ≥ cfg.degree * L.blockLen
    · rw [if_pos hn, leafBatch_eq hP hL hc hDB input hn]
      simp only [Option.bind_eq_bind, Option.bind_some]
      rw [absorb_absd hP hr hrw]
      simp only [Option.bind_some, ne_eq, not_true_eq_false, if_false]
      obtain ⟨n, h1, h2⟩ := ih (m ++ leafCVs P (L.rateInLanes * 8) L.blockLen L.suffix (L.cvLanes * 8) cfg.degree input)
        (input.drop (cfg.degree * L.blockLen)) (by simp; omega)
      refine ⟨n + cfg.degree, ?_, ?_⟩
      · rw [Nat.add_mul]; simp at h1; omega
      · rw [h2]
        simp only [Option.bind_some, Option.some.injEq, Prod.mk.injEq, true_and, and_true, List.drop_drop]
        rw [Nat.add_comm n, leafCVs_add, List.append_assoc, Nat.add_mul]
        exact ⟨rfl, rfl⟩
    · rw [if_neg hn]
      exact ⟨0, by simp, by simp [leafCVs]⟩

theorem leafStages_eq (hP : P.Valid) {L : Leaf} (hL : LeafOk P L)
    {r : Nat} (hr : 0 < r) (hrw : r ≤ P.width) (cfgs : List Cfg)
    (hc : ∀ cfg ∈ cfgs, CfgOk P L cfg) : ∀ (m input : Bytes),
    ∃ n, n * L.blockLen ≤ input.length ∧ leafStages P L cfgs (absd P r m) input =
      some (0, absd P r (m ++ leafCVs P (L.rateInLanes * 8) L.blockLen L.suffix (L.cvLanes * 8) n input),
        input.drop (n * L.blockLen), n) := by
  induction cfgs with
  | nil => intro m input; exact ⟨0, by simp, by simp [leafStages, leafCVs]⟩
  | cons cfg cfgs ih =>
    intro m input
    have hcfg := hc cfg (by simp)
    have hDB : cfg.degree * L.blockLen < 2 ^ 64 := by
      have e : (cfg.degree - 1) * L.blockLen + L.blockLen = cfg.degree * L.blockLen := by
        conv_rhs => rw [show cfg.degree = cfg.degree - 1 + 1 by have := hcfg.1; omega, Nat.add_mul, Nat.one_mul]
      have hB := hcfg.B_lt
      have := hcfg.2.1
      omega
    obtain ⟨n, h1, h2⟩ := leafLoop_eq hP hL hcfg hDB hr hrw (input.length + 1) m input (by omega)
    obtain ⟨n', h3, h4⟩ := ih (fun c h => hc c (by simp [h]))
      (m ++ leafCVs P (L.rateInLanes * 8) L.blockLen L.suffix (L.cvLanes * 8) n input) (input.drop (n * L.blockLen))
    refine ⟨n + n', by rw [Nat.add_mul]; simp at h3; omega, ?_⟩
    simp only [leafStages, h2, Option.bind_eq_bind, Option.bind_some, ne_eq, not_true_eq_false, if_false, h4]
    rw [leafCVs_add, List.append_assoc, List.drop_drop, Nat.add_mul]

theorem closeLeaf_eq (hP : P.Valid) {r : Nat} (hr : 0 < r) (hrw : r ≤ P.width) (d : Byte) (hd : d ≠ 0) (cv : Nat)
    (q m : Bytes) :
    closeLeaf P d cv (absd P r q) (absd P r m) =
      some (0, sqd P r q d cv, absd P r (m ++ out P r q d cv)) := by
  unfold closeLeaf
  rw [lastFewBits_absd hP hr hrw q d hd]
  simp only [Option.bind_eq_bind, Option.bind_some, ne_eq, not_true_eq_false, if_false]
  rw [squeeze_sqd hP hr hrw]
  simp only [Option.bind_some, ne_eq, not_true_eq_false, if_false, Nat.zero_add, List.drop_zero]
  rw [absorb_absd hP hr hrw]
  simp

theorem leafCVs_append (r B d cv) (k n : Nat) (A x : Bytes) (hA : A.length = k * B) :
    leafCVs P r B d cv (k + n) (A ++ x) = leafCVs P r B d cv k A ++ leafCVs P r B d cv n x := by
  rw [leafCVs_add, ← leafCVs_take r B d cv k (A ++ x) (k * B) (Nat.le_refl _), ← hA]
  simp

/-- One more block, possibly incomplete. -/
theorem leafCVs_snoc (r B d cv) (k : Nat) (A x : Bytes) (hA : A.length = k * B) (hx : x.length ≤ B) :
    leafCVs P r B d cv (k + 1) (A ++ x) = leafCVs P r B d cv k A ++ out P r x d cv := by
  rw [leafCVs_append _ _ _ _ _ _ _ _ hA]
  simp [leafCVs, List.take_of_length_le hx]

/-- A tree in construction over the bytes `M`: `k` complete blocks have been hashed into the final node,
which started with `m0`; the incomplete block is in the queue. -/
def TreeOk (P : SnP) (r B : Nat) (d : Byte) (cv : Nat) (m0 M : Bytes) (queue final : SpongeInst)
    (qlen k : Nat) : Prop :=
  ∃ A Q : Bytes, M = A ++ Q ∧ A.length = k * B ∧ Q.length < B ∧
    final = absd P r (m0 ++ leafCVs P r B d cv k A) ∧ qlen = Q.length ∧ (Q ≠ [] → queue = absd P r Q)

section
variable {r B cv : Nat} {d : Byte} {m0 M : Bytes} {q f : SpongeInst} {n k : Nat}

theorem treeOk_init (hB : 0 < B) (m0 : Bytes) (q : SpongeInst) :
    TreeOk P r B d cv m0 [] q (absd P r m0) 0 0 :=
  ⟨[], [], rfl, by simp, by simpa, by simp [leafCVs], rfl, fun h => absurd rfl h⟩

theorem TreeOk.lt (h : TreeOk P r B d cv m0 M q f n k) : n < B := by
  obtain ⟨A, Q, -, -, h1, -, rfl, -⟩ := h; exact h1

theorem TreeOk.length (h : TreeOk P r B d cv m0 M q f n k) : M.length = k * B + n := by
  obtain ⟨A, Q, rfl, h1, -, -, rfl, -⟩ := h; simp [h1]

variable (hP : P.Valid) (hr : 0 < r) (hrw : r ≤ P.width)
include hP hr hrw

/-- More bytes in the queue, without completing the block. -/
theorem TreeOk.more (h : TreeOk P r B d cv m0 M q f n k) (hn : n ≠ 0) (x : Bytes) (hx : n + x.length < B) :
    ∃ q', absorb P q x = some (0, q') ∧ TreeOk P r B d cv m0 (M ++ x) q' f (n + x.length) k := by
  obtain ⟨A, Q, rfl, h1, h2, h3, rfl, h5⟩ := h
  have hQ : Q ≠ [] := by rintro rfl; simp at hn
  refine ⟨_, by rw [h5 hQ, absorb_absd hP hr hrw], A, Q ++ x, by simp, h1, by simpa, h3, by simp, fun _ => rfl⟩

/-- Completing the block in the queue. -/
theorem TreeOk.full (hd : d ≠ 0) (h : TreeOk P r B d cv m0 M q f n k) (hn : n ≠ 0) (x : Bytes)
    (hx : n + x.length = B) :
    ∃ q' q'' f', absorb P q x = some (0, q') ∧ closeLeaf P d cv q' f = some (0, q'', f') ∧
      TreeOk P r B d cv m0 (M ++ x) q'' f' 0 (k + 1) := by
  obtain ⟨A, Q, rfl, h1, h2, rfl, rfl, h5⟩ := h
  have hQ : Q ≠ [] := by rintro rfl; simp at hn
  refine ⟨_, _, _, by rw [h5 hQ, absorb_absd hP hr hrw], closeLeaf_eq hP hr hrw d hd cv _ _, A ++ (Q ++ x), [],
    by simp, by simp [h1, Nat.add_mul]; omega, by simp; omega, ?_, rfl, fun h => absurd rfl h⟩
  rw [leafCVs_snoc _ _ _ _ _ _ _ h1 (by simp; omega), List.append_assoc]

/-- A new incomplete block in the queue. -/
theorem TreeOk.start (h : TreeOk P r B d cv m0 M q f 0 k) (x : Bytes) (hx : x.length < B) :
    ∃ q', absorb P (absd P r []) x = some (0, q') ∧ TreeOk P r B d cv m0 (M ++ x) q' f x.length k := by
  obtain ⟨A, Q, rfl, h1, h2, h3, h4, -⟩ := h
  obtain rfl := List.eq_nil_of_length_eq_zero h4.symm
  exact ⟨_, absorb_absd hP hr hrw _ _, A, x, by simp, h1, hx, h3, rfl, fun _ => rfl⟩

/-- A new complete block through the queue. -/
theorem TreeOk.startFull (hd : d ≠ 0) (h : TreeOk P r B d cv m0 M q f 0 k) (x : Bytes) (hx : x.length = B)
    (hB : 0 < B) :
    ∃ q' q'' f', absorb P (absd P r []) x = some (0, q') ∧ closeLeaf P d cv q' f = some (0, q'', f') ∧
      TreeOk P r B d cv m0 (M ++ x) q'' f' 0 (k + 1) := by
  obtain ⟨A, Q, rfl, h1, h2, rfl, h4, -⟩ := h
  obtain rfl := List.eq_nil_of_length_eq_zero h4.symm
  refine ⟨_, _, _, absorb_absd hP hr hrw _ _, closeLeaf_eq hP hr hrw d hd cv _ _, A ++ x, [],
    by simp, by simp [h1, Nat.add_mul]; omega, by simpa, ?_, rfl, fun h => absurd rfl h⟩
  rw [List.nil_append, leafCVs_snoc _ _ _ _ _ _ _ h1 (by omega), List.append_assoc]

/-- Closing the incomplete block at the end. -/
theorem TreeOk.close (hd : d ≠ 0) (h : TreeOk P r B d cv m0 M q f n k) (hn : n ≠ 0) :
    ∃ q', closeLeaf P d cv q f = some (0, q', absd P r (m0 ++ leafCVs P r B d cv (k + 1) M)) := by
  obtain ⟨A, Q, rfl, h1, h2, rfl, rfl, h5⟩ := h
  have hQ : Q ≠ [] := by rintro rfl; simp at hn
  rw [h5 hQ, closeLeaf_eq hP hr hrw d hd cv]
  refine ⟨sqd P r Q d cv, ?_⟩
  rw [leafCVs_snoc _ _ _ _ _ _ _ h1 (by omega), List.append_assoc]

omit hP hr hrw in
theorem TreeOk.closed (h : TreeOk P r B d cv m0 M q f 0 k) :
    f = absd P r (m0 ++ leafCVs P r B d cv k M) := by
  obtain ⟨A, Q, rfl, h1, h2, rfl, h4, h5⟩ := h
  obtain rfl := List.eq_nil_of_length_eq_zero h4.symm
  simp

end

/-- Complete blocks through the parallel implementations. -/
theorem TreeOk.blocks (hP : P.Valid) {L : Leaf} (hL : LeafOk P L) (cfgs : List Cfg)
    (hc : ∀ cfg ∈ cfgs, CfgOk P L cfg) {m0 M : Bytes} {q f : SpongeInst} {k : Nat}
    (h : TreeOk P (L.rateInLanes * 8) L.blockLen L.suffix (L.cvLanes * 8) m0 M q f 0 k) (input : Bytes) :
    ∃ j f', j * L.blockLen ≤ input.length ∧
      leafStages P L cfgs f input = some (0, f', input.drop (j * L.blockLen), j) ∧
      TreeOk P (L.rateInLanes * 8) L.blockLen L.suffix (L.cvLanes * 8) m0
        (M ++ input.take (j * L.blockLen)) q f' 0 (k + j) := by
  obtain ⟨A, Q, rfl, h1, h2, rfl, h4, -⟩ := h
  obtain rfl := List.eq_nil_of_length_eq_zero h4.symm
  have hrp := hL.rate_pos
  obtain ⟨j, h5, h6⟩ := leafStages_eq hP hL (by omega) hL.rate_le cfgs hc
    (m0 ++ leafCVs P (L.rateInLanes * 8) L.blockLen L.suffix (L.cvLanes * 8) k A) input
  refine ⟨j, _, h5, h6, A ++ input.take (j * L.blockLen), [], by simp, ?_, hL.B_pos, ?_, rfl,
    fun h => absurd rfl h⟩
  · simp [h1, Nat.add_mul]; omega
  · rw [leafCVs_append _ _ _ _ _ _ _ _ h1, leafCVs_take _ _ _ _ _ _ _ (Nat.le_refl _), List.append_assoc]

end PlSnP
