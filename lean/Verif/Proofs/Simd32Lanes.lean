import Verif.Proofs.Simd32Mem
import Verif.Model.XoodooSimd
import Verif.Spec.PlSnP

/-!
Changes of lanes of all interleaved states, and of buffers written with a stride.
-/

namespace Simd32

open Xoodoo (Lane Lanes wordOfBytes bytesOfWord byteOf)
open PlSpec (strided InBuf)
open XoodooSimd (ptr)

variable {N : Nat}

/-- Lanes `a ≤ p < b` of all states become `g k p old`. -/
structure SUpd (N : Nat) (mem mem' : Bytes) (a b : Nat) (g : Nat → Nat → Lane → Lane) : Prop where
  len : mem'.length = mem.length
  lane : ∀ k < N, ∀ p, wd mem' (p * N + k) =
    if a ≤ p ∧ p < b then g k p (wd mem (p * N + k)) else wd mem (p * N + k)

theorem SUpd.refl (mem : Bytes) (a : Nat) (g : Nat → Nat → Lane → Lane) : SUpd N mem mem a a g :=
  ⟨rfl, fun k _ p => by rw [if_neg (by omega)]⟩

theorem SUpd.trans {mem mem1 mem2 : Bytes} {a b c : Nat} {g : Nat → Nat → Lane → Lane} (h1 : SUpd N mem mem1 a b g)
    (h2 : SUpd N mem1 mem2 b c g) (hab : a ≤ b) (hbc : b ≤ c) : SUpd N mem mem2 a c g := by
  refine ⟨h2.len.trans h1.len, fun k hk p => ?_⟩
  rw [h2.lane k hk, h1.lane k hk]
  by_cases hc : b ≤ p ∧ p < c
  · rw [if_pos hc, if_neg (by omega), if_pos (by omega)]
  · rw [if_neg hc]
    by_cases hc2 : a ≤ p ∧ p < b
    · rw [if_pos hc2, if_pos (by omega)]
    · rw [if_neg hc2, if_neg (by omega)]

theorem SUpd.congr {mem mem1 : Bytes} {a b : Nat} {g g' : Nat → Nat → Lane → Lane} (h1 : SUpd N mem mem1 a b g)
    (h : ∀ k < N, ∀ p x, a ≤ p → p < b → g k p x = g' k p x) : SUpd N mem mem1 a b g' := by
  refine ⟨h1.len, fun k hk p => ?_⟩
  rw [h1.lane k hk]
  split
  · rename_i hc; rw [h k hk _ _ hc.1 hc.2]
  · rfl

theorem row_iff {p p' k : Nat} (hk : k < N) : p * N ≤ p' * N + k ∧ p' * N + k < p * N + N ↔ p' = p := by
  constructor
  · intro h
    rcases Nat.lt_trichotomy p' p with h1 | h1 | h1
    · have : (p' + 1) * N ≤ p * N := Nat.mul_le_mul_right _ h1
      rw [Nat.add_mul] at this; omega
    · exact h1
    · have : (p + 1) * N ≤ p' * N := Nat.mul_le_mul_right _ h1
      rw [Nat.add_mul] at this; omega
  · rintro rfl; omega

theorem row_le {mem : Bytes} (hm : mem.length = 48 * N) {p : Nat} (hp : p < 12) : 4 * (p * N) + 4 * N ≤ mem.length := by
  have : (p + 1) * N ≤ 12 * N := Nat.mul_le_mul_right _ hp
  rw [Nat.add_mul] at this; omega

theorem loadRow {mem : Bytes} (hm : mem.length = 48 * N) (p : Nat) (hp : p < 12) :
    loadVec N mem (4 * (p * N)) = some fun l => wd mem (p * N + l.val) := loadVec_ok N mem (p * N) (row_le hm hp)

theorem storeRow {mem : Bytes} (hm : mem.length = 48 * N) (p : Nat) (hp : p < 12) (v : Vec N) :
    ∃ mem', storeVec mem (4 * (p * N)) v = some mem' ∧ SUpd N mem mem' p (p + 1) (fun k _ _ => v.at k) := by
  obtain ⟨mem', h1, h2⟩ := storeVec_ok mem (p * N) v (row_le hm hp)
  refine ⟨mem', h1, h2.len, fun k hk p' => ?_⟩
  rw [h2.wd]
  by_cases hc : p' = p
  · rw [if_pos ((row_iff hk).mpr hc), if_pos (by omega), hc]
    congr 1; omega
  · rw [if_neg (mt (row_iff hk).mp hc), if_neg (by omega)]

/-- State `k` after lanes were changed. -/
theorem SUpd.view {mem mem' : Bytes} {lc : Nat} {g : Nat → Nat → Lane → Lane} (h : SUpd N mem mem' 0 lc g) {k : Nat}
    (hk : k < N) (s : Bytes) (hl : s.length = 48)
    (hs : ∀ j < 48, s.getD j 0 = if j < lc * 4 then byteOf (g k (j / 4) (wd mem (j / 4 * N + k))) (j % 4)
      else (Simd32.view N mem k).getD j 0) : Simd32.view N mem' k = s := by
  apply bytes_ext (by rw [length_view, hl])
  intro j hj
  rw [length_view] at hj
  rw [hs j hj, view_eq, getD_bytesOfLanes _ _ hj]
  show byteOf (wd mem' (j / 4 * N + k)) (j % 4) = _
  rw [h.lane k hk]
  by_cases hc : j < lc * 4
  · rw [if_pos hc, if_pos (by omega)]
  · rw [if_neg hc, if_neg (by omega), view_eq, getD_bytesOfLanes _ _ hj]

theorem getD_xorAt (s : Bytes) (d : Bytes) (j : Nat) (hj : j < s.length) :
    (Bytes.xorAt s 0 d).getD j 0 = s.getD j 0 ^^^ d.getD j 0 := by
  simp only [List.getD_eq_getElem?_getD, Bytes.getElem?_xorAt, List.getElem?_eq_getElem hj, Nat.zero_le, if_true,
    Nat.sub_zero]
  rfl

theorem getD_slice (s : Bytes) (off n j : Nat) : (Bytes.slice s off n).getD j 0 = if j < n then s.getD (off + j) 0 else 0 := by
  rw [List.getD_eq_getElem?_getD, Bytes.getElem?_slice]
  split
  · rw [List.getD_eq_getElem?_getD]
  · rfl

/-- `AddLanesAll`. -/
theorem SUpd.view_add {mem mem' : Bytes} {lc lo : Nat} {data : Bytes}
    (h : SUpd N mem mem' 0 lc (fun k p x => x ^^^ wd data (k * lo + p))) {k : Nat} (hk : k < N) :
    Simd32.view N mem' k = Bytes.xorAt (Simd32.view N mem k) 0 (Bytes.slice data (k * (lo * 4)) (lc * 4)) := by
  refine h.view hk _ (by simp) fun j hj => ?_
  rw [getD_xorAt _ _ _ (by simpa using hj), getD_slice]
  split
  · rw [Xoodoo.byteOf_xor, byteOf_wd data _ _ (by omega), view_eq, getD_bytesOfLanes _ _ hj]
    congr 2
    rw [← Nat.mul_assoc]; omega
  · exact BitVec.xor_zero

/-- `OverwriteLanesAll`. -/
theorem SUpd.view_set {mem mem' : Bytes} {lc lo : Nat} {data : Bytes}
    (h : SUpd N mem mem' 0 lc (fun k p _ => wd data (k * lo + p))) {k : Nat} (hk : k < N) (hlc : lc * 4 ≤ 48)
    (hd : k * (lo * 4) + lc * 4 ≤ data.length) :
    Simd32.view N mem' k = Bytes.setAt (Simd32.view N mem k) 0 (Bytes.slice data (k * (lo * 4)) (lc * 4)) := by
  have hl : (Bytes.slice data (k * (lo * 4)) (lc * 4)).length = lc * 4 := Bytes.length_slice_of_le hd
  refine h.view hk _ (by simp) fun j hj => ?_
  rw [getD_setAt _ _ _ _ (by rw [hl]; simpa using hlc), hl, getD_slice]
  by_cases hc : j < lc * 4
  · rw [if_pos hc, if_pos (by omega), if_pos (by omega), byteOf_wd data _ _ (by omega)]
    congr 1
    rw [← Nat.mul_assoc]; omega
  · rw [if_neg hc, if_neg (by omega)]

/-! ### Output -/

/-- In the buffer seen as rows of `lo` words, the words in rows `k0 ≤ k < k1` and columns `a ≤ p < b` become `h k p`. -/
structure OUpd (lo : Nat) (out out' : Bytes) (k0 k1 a b : Nat) (h : Nat → Nat → Lane) : Prop where
  len : out'.length = out.length
  byte : ∀ q, out'.getD q 0 = if (k0 ≤ q / 4 / lo ∧ q / 4 / lo < k1) ∧ a ≤ q / 4 % lo ∧ q / 4 % lo < b then
    byteOf (h (q / 4 / lo) (q / 4 % lo)) (q % 4) else out.getD q 0

variable {lo : Nat}

theorem OUpd.refl (out : Bytes) (k0 k1 a : Nat) (h : Nat → Nat → Lane) : OUpd lo out out k0 k1 a a h :=
  ⟨rfl, fun q => by rw [if_neg (by omega)]⟩

theorem OUpd.cols {out out1 out2 : Bytes} {k0 k1 a b c : Nat} {h : Nat → Nat → Lane} (h1 : OUpd lo out out1 k0 k1 a b h)
    (h2 : OUpd lo out1 out2 k0 k1 b c h) (hab : a ≤ b) (hbc : b ≤ c) : OUpd lo out out2 k0 k1 a c h := by
  refine ⟨h2.len.trans h1.len, fun q => ?_⟩
  rw [h2.byte, h1.byte]
  generalize q / 4 / lo = r
  generalize q / 4 % lo = s
  by_cases hc : (k0 ≤ r ∧ r < k1) ∧ b ≤ s ∧ s < c
  · rw [if_pos hc, if_pos (by omega)]
  · rw [if_neg hc]
    by_cases hc2 : (k0 ≤ r ∧ r < k1) ∧ a ≤ s ∧ s < b
    · rw [if_pos hc2, if_pos (by omega)]
    · rw [if_neg hc2, if_neg (by omega)]

theorem OUpd.rows {out out1 out2 : Bytes} {k0 k1 k2 a b : Nat} {h : Nat → Nat → Lane} (h1 : OUpd lo out out1 k0 k1 a b h)
    (h2 : OUpd lo out1 out2 k1 k2 a b h) (hab : k0 ≤ k1) (hbc : k1 ≤ k2) : OUpd lo out out2 k0 k2 a b h := by
  refine ⟨h2.len.trans h1.len, fun q => ?_⟩
  rw [h2.byte, h1.byte]
  generalize q / 4 / lo = r
  generalize q / 4 % lo = s
  by_cases hc : (k1 ≤ r ∧ r < k2) ∧ a ≤ s ∧ s < b
  · rw [if_pos hc, if_pos (by omega)]
  · rw [if_neg hc]
    by_cases hc2 : (k0 ≤ r ∧ r < k1) ∧ a ≤ s ∧ s < b
    · rw [if_pos hc2, if_pos (by omega)]
    · rw [if_neg hc2, if_neg (by omega)]

theorem cell_iff {k p n x : Nat} (hp : p + n ≤ lo) :
    k * lo + p ≤ x ∧ x < k * lo + p + n ↔ (k ≤ x / lo ∧ x / lo < k + 1) ∧ p ≤ x % lo ∧ x % lo < p + n := by
  constructor
  · intro h
    have h1 : x / lo = k := by
      rw [Nat.div_eq_iff (by omega)]
      rw [Nat.mul_comm] at h
      constructor
      · rw [Nat.mul_comm]; omega
      · rw [Nat.mul_comm]; omega
    have h2 := Nat.div_add_mod x lo
    rw [h1, Nat.mul_comm] at h2
    omega
  · rintro ⟨h1, h2⟩
    have h3 : x / lo = k := by omega
    have h4 := Nat.div_add_mod x lo
    rw [h3, Nat.mul_comm] at h4
    omega

theorem OUpd.of_stored {out out' : Bytes} {k p n : Nat} {v : Nat → Lane} {h : Nat → Nat → Lane}
    (hs : Stored out out' (k * lo + p) n v) (hp : p + n ≤ lo) (hv : ∀ j < n, v j = h k (p + j)) :
    OUpd lo out out' k (k + 1) p (p + n) h := by
  refine ⟨hs.len, fun q => ?_⟩
  rw [hs.byte]
  have hi := cell_iff (k := k) (x := q / 4) hp
  by_cases hc : (k ≤ q / 4 / lo ∧ q / 4 / lo < k + 1) ∧ p ≤ q / 4 % lo ∧ q / 4 % lo < p + n
  · have h1 := hi.mpr hc
    rw [if_pos hc, if_pos (by omega), hv _ (by omega)]
    have h2 := Nat.div_add_mod (q / 4) lo
    have h3 : q / 4 / lo = k := by omega
    rw [h3] at h2 ⊢
    rw [Nat.mul_comm] at h2
    congr 2; omega
  · rw [if_neg hc, if_neg]
    intro h1
    exact hc (hi.mp (by omega))

/-- What `strided` gives when the pieces do not overlap. -/
theorem getD_strided (piece : Nat → Bytes) (len : Nat) (hpl : ∀ k, (piece k).length = len * 4) (hlo : len ≤ lo) (h0 : 0 < lo)
    (n : Nat) (out : Bytes) (hb : ∀ k < n, k * (lo * 4) + len * 4 ≤ out.length) (q : Nat) :
    (strided piece (lo * 4) n out).getD q 0 = if q / 4 / lo < n ∧ q / 4 % lo < len then
      (piece (q / 4 / lo)).getD (4 * (q / 4 % lo) + q % 4) 0 else out.getD q 0 := by
  have hlen : ∀ n, (strided piece (lo * 4) n out).length = out.length := by
    intro n; induction n with
    | zero => rfl
    | succ n ih => rw [strided, Bytes.length_setAt, ih]
  induction n with
  | zero => rw [strided, if_neg (by simp)]
  | succ n ih =>
    have hb1 := hb n (by omega)
    rw [strided, getD_setAt _ _ _ _ (by rw [hpl, hlen]; omega), hpl, ih (fun k hk => hb k (by omega))]
    have hi := cell_iff (lo := lo) (k := n) (p := 0) (n := len) (x := q / 4) (by omega)
    have h2 := Nat.div_add_mod (q / 4) lo
    have e : n * (lo * 4) = 4 * (n * lo) := by rw [← Nat.mul_assoc, Nat.mul_comm]
    by_cases hc : q / 4 / lo = n ∧ q / 4 % lo < len
    · have h1 := hi.mpr (by omega)
      rw [if_pos (by omega), if_pos (by omega), hc.1]
      rw [hc.1, Nat.mul_comm] at h2
      congr 1; omega
    · have h1 : ¬ (n * (lo * 4) ≤ q ∧ q < n * (lo * 4) + len * 4) := fun h => by
        have := hi.mp (by omega); omega
      rw [if_neg h1]
      by_cases hc2 : q / 4 / lo < n ∧ q / 4 % lo < len
      · rw [if_pos hc2, if_pos (by omega)]
      · rw [if_neg hc2, if_neg (by omega)]

theorem OUpd.strided {out out' : Bytes} {lc : Nat} {h : Nat → Nat → Lane} (hu : OUpd lo out out' 0 N 0 lc h)
    (piece : Nat → Bytes) (hpl : ∀ k, (piece k).length = lc * 4) (hlo : lc ≤ lo) (h0 : 0 < lo)
    (hb : InBuf N (lo * 4) (lc * 4) out)
    (hp : ∀ k < N, ∀ p < lc, ∀ r < 4, (piece k).getD (4 * p + r) 0 = byteOf (h k p) r) :
    out' = PlSpec.strided piece (lo * 4) N out := by
  have hlen : ∀ n, (PlSpec.strided piece (lo * 4) n out).length = out.length := by
    intro n; induction n with
    | zero => rfl
    | succ n ih => rw [PlSpec.strided, Bytes.length_setAt, ih]
  apply bytes_ext (by rw [hu.len, hlen])
  intro q _
  rw [hu.byte, getD_strided piece lc hpl hlo h0 N out hb]
  by_cases hc : q / 4 / lo < N ∧ q / 4 % lo < lc
  · rw [if_pos ⟨⟨Nat.zero_le _, hc.1⟩, Nat.zero_le _, hc.2⟩, if_pos hc, hp _ hc.1 _ hc.2 _ (by omega)]
  · rw [if_neg (fun h => hc ⟨h.1.2, h.2.2⟩), if_neg hc]

theorem strided_nil (piece : Nat → Bytes) (hp : ∀ k, piece k = []) (s n : Nat) (out : Bytes) :
    PlSpec.strided piece s n out = out := by
  induction n with
  | zero => rfl
  | succ n ih => rw [PlSpec.strided, ih, hp]; simp

/-- The pointers. -/
theorem ptr_eq (lo k : Nat) (h : lo * k * 4 < 2 ^ 32) : ptr lo k = 4 * (k * lo) := by
  unfold ptr
  rw [Nat.mod_eq_of_lt h, Nat.mul_comm lo k]; omega

theorem inBuf_word {lc : Nat} {data : Bytes} (hb : InBuf N (lo * 4) (lc * 4) data) (k : Nat) (hk : k < N) :
    4 * (k * lo) + 4 * lc ≤ data.length := by
  have := hb k hk
  rw [← Nat.mul_assoc] at this; omega

end Simd32
